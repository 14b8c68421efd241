# Formal model of icon-project/icon-dex — design

Status of each property is in `MANIFEST.json`; this file says what is modelled, how, and what is trusted.

## 1. Trusted base

* Lean 4.33.0's kernel; axioms used by theorems: at most `propext`, `Classical.choice`, `Quot.sound`
  (Lean/Mathlib standard). No axioms of our own, no compiled-code tactics.
* The reading of `/repo` that turned Python into the Lean definitions of `lean/Verif/Model/*`. Every definition
  cites file and lines. The code is not run here. For the contracts (tokens, registry, converter, network, formula, utilities) this reading
  is itself checked (C76): the definitions are proved to do what the text of the methods does, where the text is a syntax tree
  (`Model/Source/Text.lean`, written by `tools/gen_source.py` with Python's own `ast`) and its meaning an interpreter
  (`Model/Source/Sem.lean`). What remains to be trusted there: that script, the interpreter as a description of Python, with the
  simplifications listed at its head, and the platform part of `Model/Exec.lean` and `Model/Source/Machine.lean`.
* Assumptions about the ICON platform (iconservice), which is not part of `/repo`:
  - a transaction that raises leaves no effect (rollback); a nested call whose failure is caught by the *calling
    third-party* contract rolls back the callee's effects (none of the repo's own contracts continues after a failed call);
  - `VarDB`/`DictDB`/`ArrayDB` behave as a variable / total map with default (`0`, `False`, `None`) / list (that their keys do not
    collide is C73; if the platform hashes keys, hashes without collisions are assumed);
  - `msg.sender`/`msg.value` of a nested call are the calling SCORE and the coin sent; `icx.transfer` moves coin and
    runs the recipient SCORE's `fallback`; a non-payable method rejects coin; coin cannot be sent to a contract address
    without a contract;
  - top-level senders are ordinary (`hx…`) accounts; the code at an address never changes (re-deployment with other code is not
    modelled; the repo's own `on_update` methods do nothing, C77);
  - Python `int` is unbounded: `Int`/`Nat`.
  - step costs / call-depth limits are an arbitrary recursion budget (`fuel`), universally quantified.

### What is not modelled

* Code updates of a deployed SCORE with other code than that of `/repo`, and everything the platform does besides the list above.
* `getFinalAmount` for a negative magnitude (Python then computes with floats; no contract method passes one on,
  converter.py:341-350 is only reachable with a caller-chosen magnitude in the read-only query).
* Of JSON documents (`Model/Json.lean`): what numbers with a fraction or exponent are read as and how deep documents may nest are
  parameters; integers of over 4300 digits are read (newer Pythons refuse them); an escaped lone surrogate is read as U+0000, which
  no path or address contains either; nested lists and objects keep no content, as every use of them fails.
* Events of a third-party contract other than those the repo's own contracts have (`Prog.emit` emits any of these under its own address).
* Packaging: file permissions and links; `str.replace` of the contracts path is modelled for paths containing it once, in
  front; `__pycache__` is looked for as a path component; directories exist as far as files are below them.
* Generator scripts: the text printed around the numbers (`print_function_general_exp.py` and
  `print_file_formula_constants.py` only print text); which way `Decimal` rounds is left open (`Rounded`).
* The interfaces (`contracts/interfaces`) are modelled as declarations (C69); `tests/` are not modelled; of `README.md` only the deployment guide (`Spec/Guide.lean`).

## 2. Model

| file | models |
|---|---|
| `Model/Formula.lean`, `FormulaTables.lean` | `contracts/formula/fixed_map_formula.py` completely (tables generated from the text of the file) |
| `Model/Address.lean` | address text format, path string parsing (`network.py:_convert_path`) |
| `Model/Base.lean`, `World.lean` | ledger: storage of every SCORE kind, ICX coin, event log, ghost trace of call frames; call alphabet (ABI); third-party contracts as arbitrary interaction programs |
| `Model/Token.lean` | `irc_token.py`, `flexible_token.py`, `icx_token.py`, `owned.py`, `token_holder.py` |
| `Model/Registry.lean` | `score_registry.py` |
| `Model/Converter.lean` | `converter.py`, `flexible_token_controller.py`, `managed.py` |
| `Model/Network.lean` | `network.py` |
| `Model/Exec.lean` | dispatch, nested calls, transactions, deployment (`on_install`), reachability |
| `Model/Packaging.lean` | `build.py`, `contract_generator/{config,builder,writer}.py`, files and import graph of `contracts/` |
| `Model/Storage.lean` | `contracts/utility/storage.py` (the attribute access of Python as far as used) |
| `Model/Classes.lean`, `ClassTable.lean` | Python classes: order of resolution, inherited calls, decorators; the table is generated from the text of all classes of `contracts/` (`tools/gen_classes.py`) |
| `Model/Json.lean` | the bytes of messages: `json_loads(data.decode('utf-8'))` (network.py:105, converter.py:245) and `json_dumps(data).encode('utf-8')` (network.py:282), after CPython's `json` package and UTF-8 codec |
| `Model/Layout.lean` | the database keys of all fields: the names in `__init__` of the classes, `ConnectorDict`; how the platform joins them is written from knowledge of `iconservice` |
| `Model/Proxy.lean` | `contracts/utility/proxy_score.py` with the function and class objects it creates |
| `Model/Source/Lang.lean`, `Text.lean` | the part of Python's syntax the contracts use, and the syntax trees of all functions and methods of `contracts/` (generated; docstrings and parameter annotations are dropped; the only keyword arguments, `encoding=`, become positional) |
| `Model/Source/Sem.lean`, `Machine.lean` | an interpreter for them (method resolution, expressions, statements, storage objects, calls of other contracts), and the ledger driven by it |
| `Model/Source/Declared.lean` | the storage objects made by `__init__`, and what the text of the methods refers to |
| `Model/Generator.lean` | `contracts/formula/auto_generate/**` |

**Method bodies are open-recursive**: each takes the "call another contract" function as a parameter, `exec (fuel+1)`
ties the knot with `exec fuel`. Third-party (foreign) contracts are an *oracle* `World → frame → Prog`, where `Prog` is an
interaction tree (return / fail / emit / call-and-continue, with failure observable). Oracles are universally quantified, and can
depend on the whole ledger including the ghost trace of the frames so far, so they cover every deterministic stateful
contract, including re-entrant attackers.

## 3. Properties: what is modelled and how each is proved

The specification vocabulary used in theorem statements is in `Spec.lean` and `Spec/*.lean` (`Reachable`, `LegalPath`,
`Curve.purchase`, …); theorems about claims are in `Props/*.lean` and named `Cnn_…`; `Proofs/*.lean` holds lemmas.
`Props/Scenario.lean` builds a concrete reachable ledger (registry, network, ICX token, plain token, two flexible tokens, two
converters, accounts) on which the examples beside the theorems evaluate.

* **Histories** (C01, C04-C06, C08, C09, C12-C17, C20, C21, C23, C32, C39, C41, C58): a two-state preorder `R w w'` is shown
  for every storage write, lifted through every method body with `Rel` combinators (given that nested calls satisfy `R`), then
  to `exec` by induction on fuel, to transactions and to reachable states by induction on the history. "X happened only if
  Y was called" uses the ghost frame trace, which records callee, caller, call and the callee's owner/manager at that time.
* **Single calls** (C02, C03, C07, C10, C11, C16, C18, C19, C22, C24-C31, C33, C34, C55, C56): inversion of the method bodies;
  wherever it makes sense as an exact "succeeds if and only if, and then the ledger is exactly this".
* **Deployment** (C57): the same for `Tx.deploy`.
* **Network end-to-end** (C35-C38, C40, C41, C53): per-hop lemmas about honest tokens/converters, induction over the path.
* **Event log** (C53, C54): the log of a reachable ledger is replayed by small state machines specified in `Spec/Events.lean`;
  invariant that replaying yields the contracts' records.
* **Formula** (C42-C51): integer reasoning for ranges; `Mathlib` real analysis for `never overpays`, `round trip`,
  `accuracy`, `beyond the accurate range` (rational bounds of `exp`/`log` constants by Taylor sums in the kernel). The exact
  curves are in `Spec/Curve.lean`.
* **Packaging** (C52): finite tables lifted to chains of any length by induction; file-system semantics of the writers.
* **Pool** (C59): a hierarchy of frame-level relations (`Proofs/Pool*.lean`): every call on any contract, in the middle of
  anything, either is one of the listed acts of persons in office, or moves the pool along the curve (C46 gives the value bound).
* **What the log tells** (C61): every write to owner, manager, fee, switch or registry entry is paired, call by call, with the
  event it must come with (`Fits` in `Proofs/Steps.lean`), lifted to histories (`Proofs/Chronicle.lean`).
* **Guide** (C62): the exact theorems of C12, C18, C22, C33, C41, C55, C57, composed by induction over the list of connectors.
* **Winding up** (C63): the exact theorems of C12 and C55 and an exact one for `withdrawTokens`, induction over the tokens.
* **Liveness** (C64): the exact conditions of C35, each discharged from the quote, the formula's ranges (C43, C44), C01 and C09,
  by induction over the path. That an open path stays open: the frame-level relations of C14-C17, C59.
* **Zero sum** (C65): conservation by the history method over finite sums; C59 for the converter's own holdings.
* **Strategies** (C66): the value bound of C46 solved for one balance, compared with the accuracy of C47; C59 for the contracts.
* **Exit** (C67): C59 keeps the pool in business and its reserves positive, C43/C44 show that the formula answers, C64 that the answer can be had.
* **Storage wrapper** (C68): induction over fields, assignments, sessions.
* **Interfaces** (C69): the table of classes read off the text (C3 order of resolution computed in the kernel) against the dispatch of the
  ledger model, call by call; read-only by the history method; calls between contracts by the frame trace.
* **Messages** (C71): the grammar of RFC 8259 as a relation in `Spec/Json.lean`, independent of the parser; the parser is proved to
  accept every text of the grammar and nothing but the grammar (with Python's extensions marked), UTF-8 decoding to be the inverse
  of encoding.
* **Price** (C72): concavity of the exact curve (chords and tangents of powers) together with the error bounds of C45 and C47; for a second
  conversion, the bound of C66 on what two trades bring. At the converter through C25-C28.
* **Nesting** (C74): each call has a rank; walking through every method, two runs that differ only in the budget of their nested calls
  agree as long as the nested calls of smaller rank do, and the frames they add are counted. Seven is an upper bound; six is the deepest
  nesting shown by an example.
* **Locality** (C75): walking through every method, a success on one ledger is replayed on any other that has the same rows (code,
  storage, coin) at the touched addresses; swapping and front-running follow. Row equalities of the example are checked by the kernel's
  definitional equality (`kernel_rfl` hands `Eq.refl` to the kernel).
* **Source text** (C76): symbolic execution of every method's syntax tree by the simplifier (look-ups are generated and checked by the
  kernel, loops by induction), each equal to the model's method as a partial function of the ledger; then dispatch method by method for the
  six classes, `exec` by induction on the budget, third-party code by induction on its program, transactions and histories.
* **Declarations** (C77): the storage objects are read off the text of `__init__` (following `super()` through the order of resolution) and
  compared with the fields of the interpreter and the keys of the layout; the check of all names is computed by the kernel over the whole text;
  `on_update` is run by the interpreter.
* **Legs** (C78): the exact ledger after a conversion along a path (C35, C37) as a composition of hops; delivering the middle amount to the trader and
  having it sent back is the identity on ledgers.
* **Slippage** (C79): conservation of every token and coin over all accounts (C65) turns what the trader and the others gain into what the
  converter pays; the value of the pool (C59, C66) bounds that by the exact curve. Three concrete sandwiches meet the hypotheses.
* **Stray tokens** (C80): the balance of a contract without `tokenFallback` as a quantity no call raises (induction over the nesting of
  calls with the token singled out), along histories; deposits by such contracts are impossible because they pass no coin on.
* **Switches** (C81): a converter that accepts tokens from a network shows whose network its registry names; by induction along the
  path a successful conversion makes a merely known path an honest one, and its route (C35) carries the other switches. The new
  network after `registerAddress`: honest paths and quotes do not mention the network, so C64 applies.
* **Round trips** (C82): an order through one converter has an exact effect on its pool (`exchanged`, from the route of C35 and the
  deliveries of C36); the two quotes of a round trip are trades of C46, which says the pool keeps its value, so the second quote is
  at most the first payment. Along a path the pools are independent (C78), so the argument is repeated hop by hop from the far end
  (`Passed.back`), each hop taking back at most what it gave. The lower bound: the part of a reserve that stays is convex in the amount sold (`stays_convex`), and
  C47 bounds the rounding. The accuracy range of C47 is derived from plain bounds on the balances (`stays_back`).
* **Rates** (C83): the pools of a path are met as they were at the beginning (C78, `Passed`); each hop's formula result is below the
  tangent of its curve but for a unit (C72), and rates and fees are nonnegative, so the bound is pushed along the path by induction.
* **Storage layout** (C73): the keys as bytes; address and integer encodings have left inverses, the kind of container is the byte after the
  address of the contract, the names are compared by evaluation.
* **ProxyScore** (C70): invariant of the two caches over any history of calls; the project's interfaces from the table of C69.
* **Generator** (C60): the scripts' binary searches, series and Decimal computations; existence and uniqueness of their results.

## 4. Findings (places where the code does not do what its documentation says, or what one would expect)

1. C31 is false for virtual-balance connectors: `_buy`/`_convert_cross_connector` subtract the deposit from the *virtual*
   balance although it was never added (converter.py:450-452, 504-506): theorem `C31_virtual_quote_is_not_paid`.
   A purchase is therefore paid for as if the reserve were smaller, and an ordinary account can drain the reserves by buying and
   selling back: theorem `C59_virtual_is_drained` (500 become 915). On the exact curve each round gains `v²/B` (`C59_virtual_gain`).
2. `tokenFallback` compares `_from == self.getManager` (a bound method, never equal): managers cannot deposit (converter.py:231).
3. `Managed.on_install` is never called by `Converter.on_install`: the manager is unset after deployment (`C13_fresh`).
4. `_find_position_in_max_exp_array` returns 0 instead of failing when no precision admits the exponent; `_power` then goes on
   with precision 0 (fixed_map_formula.py:394): results are not monotone (`C51_not_monotone`), intermediates exceed 256 bits.
5. `updateConnector` accepts a negative virtual balance.
6. Disabling purchases of a connector does not stop cross conversions *from* it (C30 says what it stops).
7. `IcxToken.withdrawTo` emits only `Destruction`, so the log does not tell whose tokens were burnt (`C54_icx_ambiguous`).
8. SCORE tokens cannot receive IRC2 tokens by `transfer` (no `tokenFallback`), although they are token holders (`C80_refused`): a flexible
   token only ever holds flexible tokens issued to it, so its `withdrawTokens` is otherwise useless.
9. Anyone can leave tokens at the network with the data `conversionResult`; only the network's owner gets them out (C39).
10. The formula does not refuse negative deposits, and a cross conversion of minus the source balance divides by zero
    (unreachable through the contracts).
11. With a supply of 2^140 a purchase can overpay the exact curve (`C45_overpays`); C45 bounds by how much.
12. The general exponential is inaccurate for exponents well above 16 (C47 beyond the accurate range).
13. `IcxToken.withdrawTo(v, <the token itself or another ICX token>)` re-deposits the coin, crediting the calling token contract (C80).
14. The initial grant of a token is logged by no event (C54 starts from it).
15. build.py finds NOTICE relative to the current directory; utility/storage.py is in no package.
16. The depletion check of a sale is redundant (C44).
17. The strictness of the comparison inside the precision search is immaterial.
18. convertFor refuses the network as beneficiary, but the token entry point (`tokenFallback`) does not
    (`C41_conditions_tokens`).
19. The README's deployment guide cannot be followed: it lacks `transferOwnerShip` before step 7 (`C62_as_written`), and has no
    step for the reserves, which only the owner can deposit, only before activation (C33).
20. Adding connectors, the network's list of ICX tokens, the transfer switch and the registry switch change without any event
    (`C61_unlogged`).
21. The owner of a converter can at any time take out all reserves (C63): nothing protects holders of the flexible token from him.
22. All generated constants and tables in the contract agree with the scripts (C60).
23. `Storage`: a misspelt field name is silently kept in memory only, assignment to a container field is silently ignored
    (`C68_misspelt`, `C68_container_assignment`); a field called `db` makes adding further fields fail, and so does `_x` before `x`.
24. `ABCScoreRegistry.getAddress` declares its argument as `bytes`, the registry and its callers use `str` (`C69_getAddress`).

## 5. Testing the theorems against wrong programs

`seeded/LOG.jsonl` lists the edits tried and the theorems that fail; `seeded/harness` has the tools. Most edits break the build
of an early lemma, which says little about the theorems; so for every edit the *statements* of the theorems are also evaluated
on many concrete instances in the edited model (`Checks*.lean.txt`; for the real-valued statements of the formula with
100-digit arithmetic, `fcheck.py`). An edit none of whose instances fails was then examined by hand: equivalent program, or a
gap in the theorems, which was closed (`theorems_tightened`). The edits with ids Y change the parsed source texts
(`Model/Source/Text.lean`) on which `C76_call` rests: each fails the proof that the text means what the model does, except three
in statements of /repo that have no effect. Those with ids Z are aimed at C78–C83 (`Checks12` to `Checks14`).
