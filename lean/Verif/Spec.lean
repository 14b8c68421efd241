import Verif.Model.Exec
/-!
Vocabulary of the property statements: small definitions on top of the ledger, independent of the proofs.
-/
namespace Verif

/-- Kinds with the storage and methods of a token (irc_token.py). -/
def Kind.isToken (k : Kind) : Prop := k = .irc ∨ k = .icx ∨ k = .flex

instance (k : Kind) : Decidable k.isToken := by unfold Kind.isToken; infer_instance

/-- Kinds with the storage and methods of owned.py. -/
def Kind.isOwned (k : Kind) : Prop := k = .icx ∨ k = .flex ∨ k = .conv ∨ k = .net ∨ k = .reg

instance (k : Kind) : Decidable k.isOwned := by unfold Kind.isOwned; infer_instance

/-- `f` is a call frame entered since the frames were `B`. -/
def Since (B : List Frame) (w : World) (f : Frame) : Prop := ∃ new, w.frames = new ++ B ∧ f ∈ new

/-- `f` is a call that was entered (and not undone) on the way from ledger `w` to ledger `w'`. -/
def Called (w w' : World) (f : Frame) : Prop := Since w.frames w' f

/-- Balances after moving `v` from `a` to `b`, all others unchanged. -/
def moveBal (bal : Addr → Int) (a b : Addr) (v : Int) : Addr → Int :=
  fun x => bal x - (if x = a then v else 0) + (if x = b then v else 0)

/-- Balances after `a` gains `v` (loses, if `v` is negative), all others unchanged. -/
def gain (bal : Addr → Int) (a : Addr) (v : Int) : Addr → Int := fun x => bal x + (if x = a then v else 0)

/-- What the successful call `f` adds to account `a`'s balance of token `T`. -/
def credit (T a : Addr) (f : Frame) : Int :=
  if f.to = T then
    match f.call with
    | .transfer b v _ => (if a = b then v else 0) - (if a = f.sender then v else 0)
    | .issue b v => if a = b then v else 0
    | .destroy b v => if a = b then -v else 0
    | .deposit | .fallback => if a = f.sender then f.value else 0
    | .withdraw v | .withdrawTo v _ => if a = f.sender then -v else 0
    | .onInstall (.irc _ _ i d) | .onInstall (.flex _ _ i d) => if a = f.sender then i * 10 ^ d.toNat else 0
    | _ => 0
  else 0

/-- What the successful call `f` adds to the supply of token `T`. -/
def minted (T : Addr) (f : Frame) : Int :=
  if f.to = T then
    match f.call with
    | .issue _ v => v
    | .destroy _ v => -v
    | .deposit | .fallback => f.value
    | .withdraw v | .withdrawTo v _ => -v
    | .onInstall (.irc _ _ i d) | .onInstall (.flex _ _ i d) => i * 10 ^ d.toNat
    | _ => 0
  else 0

/-- The rules for calls to token `T`: amounts are not negative (positive where the code asks for it), coin is sent only to
`deposit` and `fallback`, only the owner issues, only the holder or the owner destroys. -/
def Lawful (T : Addr) (f : Frame) : Prop :=
  f.to = T →
    match f.call with
    | .transfer _ v _ => 0 ≤ v ∧ f.value = 0
    | .issue _ v => 0 < v ∧ f.value = 0 ∧ f.owner = some f.sender
    | .destroy b v => 0 < v ∧ f.value = 0 ∧ (f.sender = b ∨ f.owner = some f.sender)
    | .deposit | .fallback => 0 ≤ f.value
    | .withdraw v | .withdrawTo v _ => 0 < v ∧ f.value = 0
    | .onInstall (.irc _ _ i d) | .onInstall (.flex _ _ i d) => 0 ≤ i ∧ 0 ≤ d ∧ f.value = 0
    | _ => f.value = 0

/-- Sum over a list of calls. -/
def total (g : Frame → Int) (l : List Frame) : Int := (l.map g).sum

/-- The ledger with one more call on record (ghost information), nothing else changed. -/
def World.note (w : World) (sender dst : Addr) (value : Int) (c : Call) : World :=
  { w with frames := mkFrame w sender dst value c :: w.frames }

/-- The state after the calls `l` (newest first), each acting by `δ`, from state `s`. -/
def replay {σ : Type} (δ : Frame → σ → σ) (l : List Frame) (s : σ) : σ := l.foldr δ s

/-- Every call of `l` (newest first) satisfied `L` in the state it was made in. -/
def EachCall {σ : Type} (δ : Frame → σ → σ) (L : Frame → σ → Prop) (l : List Frame) (s : σ) : Prop :=
  ∀ later f earlier, l = later ++ f :: earlier → L f (replay δ earlier s)

/-- In ledger `w`, the read-only call `c` to `T` returns `v`: for every caller, every budget and all third-party code. -/
def Answers (w : World) (T : Addr) (c : Call) (v : Val) : Prop :=
  ∀ orc n s, 0 ≤ w.coin s → ∃ w', exec orc (n + 1) s T 0 c w = .ok (v, w')

/-- `w'` is the ledger after some more transactions. -/
inductive Later (w : World) : World → Prop where
  | refl : Later w w
  | step {w'} (orc : Oracle) (fuel : Nat) (tx : Tx) : Later w w' → Later w (tx.apply orc fuel w')

/-- The call fails, whatever third-party code does and whatever the budget. -/
def Fails (w : World) (s t : Addr) (v : Int) (c : Call) : Prop := ∀ orc n x w', exec orc n s t v c w ≠ .ok (x, w')

/-- Nothing in the storage of contract `a` differs. -/
structure Untouched (a : Addr) (w w' : World) : Prop where
  tok : w'.tok a = w.tok a
  own : w'.own a = w.own a
  flex : w'.flex a = w.flex a
  conv : w'.conv a = w.conv a
  reg : w'.reg a = w.reg a
  net : w'.net a = w.net a
  store : w'.store a = w.store a

/-! ### Storage as a function of the calls made -/

/-- Owner and pending nominee of `T` after the successful call `f`. -/
def ownAfter (T : Addr) (f : Frame) (o : OwnSt) : OwnSt :=
  if f.to = T then
    match f.call with
    | .onInstall _ => { owner := some f.sender, newOwner := some ZERO }
    | .transferOwnerShip a => { o with newOwner := some a }
    | .acceptOwnerShip => { owner := some f.sender, newOwner := some ZERO }
    | _ => o
  else o

/-- The rules of ownership of `T`: only the owner nominates (somebody else), only the nominee accepts. The frame's record of
the owner is the owner at that moment. -/
def OwnRules (T : Addr) (f : Frame) (o : OwnSt) : Prop :=
  f.to = T → f.owner = o.owner ∧
    match f.call with
    | .transferOwnerShip a => o.owner = some f.sender ∧ a ≠ f.sender
    | .acceptOwnerShip => o.newOwner = some f.sender
    | _ => True

/-- Administrative settings of a converter. -/
structure Admin where
  manager : Option Addr := none
  newManager : Option Addr := none
  fee : Int := 0
  maxFee : Int := 0
  enabled : Bool := false
  allowRegistryUpdate : Bool := false

/-- The administrative settings of the converter at `T`. -/
def World.admin (w : World) (T : Addr) : Admin :=
  { manager := (w.conv T).manager, newManager := (w.conv T).newManager, fee := (w.conv T).fee, maxFee := (w.conv T).maxFee
    enabled := (w.conv T).enabled, allowRegistryUpdate := (w.conv T).allowRegistryUpdate }

/-- Settings of converter `T` after the successful call `f`. -/
def adminAfter (T : Addr) (f : Frame) (o : Admin) : Admin :=
  if f.to = T then
    match f.call with
    | .onInstall (.conv _ _ m _ _) => { maxFee := m, enabled := true, allowRegistryUpdate := true }
    | .transferManagement a => { o with newManager := some a }
    | .acceptManagement => { o with manager := some f.sender, newManager := some ZERO }
    | .setConversionFee n => { o with fee := n }
    | .disableConversions b => { o with enabled := !b }
    | .disableRegistryUpdate b => { o with allowRegistryUpdate := !b }
    | .restoreRegistry => { o with allowRegistryUpdate := false }
    | _ => o
  else o

/-- The sender of `f` is the owner or the manager of the callee. -/
def Frame.byOwnerOrManager (f : Frame) : Prop := f.manager = some f.sender ∨ f.owner = some f.sender

/-- The rules for settings of converter `T`. The frame's records of manager and update permission are those at that moment. -/
def AdminRules (T : Addr) (f : Frame) (o : Admin) : Prop :=
  f.to = T → f.manager = o.manager ∧ f.allow = o.allowRegistryUpdate ∧
    match f.call with
    | .onInstall (.conv _ _ m _ _) => 0 ≤ m ∧ m ≤ 1000000
    | .transferManagement a => f.byOwnerOrManager ∧ o.manager ≠ some a
    | .acceptManagement => o.newManager = some f.sender
    | .setConversionFee n => f.byOwnerOrManager ∧ 0 ≤ n ∧ n ≤ o.maxFee
    | .disableConversions _ => f.byOwnerOrManager
    | .disableRegistryUpdate _ => f.byOwnerOrManager
    | .restoreRegistry => f.byOwnerOrManager
    | _ => True

/-- The table of registry `T` after the successful call `f`. -/
def regAfter (T : Addr) (f : Frame) (o : String → Option Addr) : String → Option Addr :=
  if f.to = T then
    match f.call with
    | .onInstall _ => upd o "ScoreRegistry" (some T)
    | .registerAddress n a => upd o n (some a)
    | .unregisterAddress n => upd o n none
    | _ => o
  else o

/-- The rules for the table of registry `T`. -/
def RegRules (T : Addr) (f : Frame) (o : String → Option Addr) : Prop :=
  f.to = T →
    match f.call with
    | .registerAddress n a => f.owner = some f.sender ∧ a ≠ ZERO ∧ a.isContract = true ∧ (n = "ScoreRegistry" ∨ n = "Network")
    | .unregisterAddress n => f.owner = some f.sender ∧ o n ≠ none
    | _ => True

/-- The registered ICX tokens of network `T` after the successful call `f`. -/
def netAfter (T : Addr) (f : Frame) (o : Addr → Bool) : Addr → Bool :=
  if f.to = T then
    match f.call with
    | .registerIcxToken a b => upd o a b
    | _ => o
  else o

/-- The rules for the registered ICX tokens of network `T`. -/
def NetRules (T : Addr) (f : Frame) (_ : Addr → Bool) : Prop :=
  f.to = T →
    match f.call with
    | .registerIcxToken a _ => f.owner = some f.sender ∧ a ≠ ZERO ∧ a ≠ T
    | _ => True

/-- Whether flexible token `T` is transferable after the successful call `f`. -/
def flexAfter (T : Addr) (f : Frame) (o : Bool) : Bool :=
  if f.to = T then
    match f.call with
    | .onInstall _ => true
    | .disableTransfer b => !b
    | _ => o
  else o

/-- The rules for transferability of `T`: only the owner switches it, and no transfer while it is off. -/
def FlexRules (T : Addr) (f : Frame) (o : Bool) : Prop :=
  f.to = T →
    match f.call with
    | .disableTransfer _ => f.owner = some f.sender
    | .transfer _ _ _ => o = true
    | _ => True

/-! ### Conversions -/

/-- The balance converter `T` reckons with for connector `a`: the recorded one if virtual, else the tokens it holds. -/
def World.reserve (w : World) (T a : Addr) : Int :=
  if ((w.conv T).connectors a).isVirtual then ((w.conv T).connectors a).virtualBalance else (w.tok a).bal T

/-- The converter owns its flexible token. -/
def World.active (w : World) (T : Addr) : Prop := ∃ t, (w.conv T).token = some t ∧ (w.own t).owner = some T

/-- What the formula says for converting `v` of `a` into `b` at converter `T`, leaving `x` of the balance of connector `a`
out of account. -/
def World.curve (w : World) (T a b : Addr) (v x : Int) : Except Err Int :=
  if (w.conv T).token = some b then
    Formula.calculatePurchaseReturn (w.tok b).supply (w.reserve T a - x) ((w.conv T).connectors a).weight v
  else if (w.conv T).token = some a then
    Formula.calculateSaleReturn (w.tok a).supply (w.reserve T b) ((w.conv T).connectors b).weight v
  else
    Formula.calculateCrossConnectorReturn (w.reserve T a - x) ((w.conv T).connectors a).weight
      (w.reserve T b) ((w.conv T).connectors b).weight v

/-- How often the fee is charged: once for buying or selling the flexible token, twice between connectors. -/
def World.feeSteps (w : World) (T a b : Addr) : Nat :=
  if (w.conv T).token = some b ∨ (w.conv T).token = some a then 1 else 2

/-- `x` after the fee of converter `T`, charged `k` times. -/
def World.afterFee (w : World) (T : Addr) (x : Int) (k : Nat) : Int :=
  x * (1000000 - (w.conv T).fee) ^ k / 1000000 ^ k

/-- `a` can be converted into `b` at `T`: each is the flexible token or a connector, they differ, and purchases with the
connector that receives or is bought are not disabled. -/
def World.tradable (w : World) (T a b : Addr) : Prop :=
  a ≠ b ∧
  (if (w.conv T).token = some b then
    ((w.conv T).connectors a).isSet = true ∧ ((w.conv T).connectors a).isPurchaseEnabled = true
  else if (w.conv T).token = some a then ((w.conv T).connectors b).isSet = true
  else ((w.conv T).connectors a).isSet = true ∧ ((w.conv T).connectors b).isSet = true ∧
    ((w.conv T).connectors b).isPurchaseEnabled = true)

/-- The same ledger but for the record of calls (ghost information). -/
def World.hush (w : World) (fs : List Frame) : World := { w with frames := fs }

/-- The ledgers differ in the record of calls and event logs only. -/
def World.Alike (w w' : World) : Prop := ∃ fs l, w' = { w with frames := fs, log := l }

/-- Moves `v` of token `T` from `a` to `b`. -/
def World.pay (w : World) (T a b : Addr) (v : Int) : World :=
  w.setTok T { w.tok T with bal := moveBal (w.tok T).bal a b v }

/-- A virtual connector `a` of `T` gains `v` (loses, if negative). -/
def World.virt (w : World) (T a : Addr) (v : Int) : World :=
  if ((w.conv T).connectors a).isVirtual then w.setConv T { w.conv T with
      connectors := (upd (w.conv T).connectors a
        { (w.conv T).connectors a with virtualBalance := ((w.conv T).connectors a).virtualBalance + v }) } else w

/-- `v` of flexible token `t` are issued to `x` (destroyed from `x`, if negative). -/
def World.mint (w : World) (t x : Addr) (v : Int) : World :=
  w.setTok t { w.tok t with bal := gain (w.tok t).bal x v, supply := (w.tok t).supply + v }

/-- Converter `T` of flexible token `t` with registry `R`, where network `N` is registered: all contracts of this code base.
(Coin balances are not negative in any ledger that occurs.) -/
structure Wired (w : World) (T t R N : Addr) : Prop where
  conv : w.kind T = .conv
  token : (w.conv T).token = some t
  flex : w.kind t = .flex
  registry : (w.conv T).registry = some R
  reg : w.kind R = .reg
  network : w.reg R "Network" = some N
  net : w.kind N = .net
  contract : T.isContract = true ∧ N.isContract = true
  coin : ∀ a, 0 ≤ w.coin a

/-- The data `d` asks a converter for at least `m` of token `b`: a JSON object with the text of `b` as `toToken` and the
number `m` as `minReturn`. -/
def Asks (d : Data) (b : Addr) (m : Int) : Prop :=
  ∃ fields s j, d = .json fields ∧ fields.lookup "toToken" = some (.str s) ∧ Text.toAddr s = some b ∧
    fields.lookup "minReturn" = some j ∧ (j = .int m ∨ j = .float m ∨ (j = .bool true ∧ m = 1) ∨ (j = .bool false ∧ m = 0))

/-- The ledger after a conversion of `v` of `a` (already at the converter) into `r` of `b` for `N`. Between connectors and for
sales the tokens are paid out of the converter's holding; a purchase is issued; a sale destroys what was sold. -/
def World.traded (w : World) (T t a b N : Addr) (v r : Int) : World :=
  if b = t then (w.virt T a v).mint t N r
  else if a = t then ((w.virt T b (-r)).mint t T (-v)).pay b T N r
  else ((w.virt T a v).virt T b (-r)).pay b T N r

/-- What must hold for paying `r` out of connector `b` for `v` of `a`. -/
def World.payable (w : World) (T t a b : Addr) (v r : Int) : Prop :=
  if b = t then True
  else r ≤ (w.tok b).bal T ∧ (w.kind b = .flex → (w.flex b).transferable = true) ∧
    (((w.conv T).connectors b).isVirtual = true → r ≤ ((w.conv T).connectors b).virtualBalance) ∧
    (if a = t then (r < w.reserve T b ∨ (r = w.reserve T b ∧ v = (w.tok t).supply)) ∧ v ≤ (w.tok t).bal T
     else r < (if ((w.conv T).connectors b).isVirtual then w.reserve T b - r else w.reserve T b))

/-! ### Conversions along a path -/

/-- Path `a, ft₁, a₁, ft₂, a₂, ...`: the tokens `a, a₁, ...` are of this code base, and every `ftᵢ` is a flexible token of this
code base owned by its converter, where network `N` is registered. -/
def HonestPath (w : World) (N : Addr) : Addr → List Addr → Prop
  | a, ft :: b :: rest => (w.kind a).isToken ∧ (∃ T R, (w.own ft).owner = some T ∧ Wired w T ft R N) ∧ HonestPath w N b rest
  | a, _ => (w.kind a).isToken

/-- The last token of a path. -/
def lastOf : Addr → List Addr → Addr
  | a, [] => a
  | _, b :: rest => lastOf b rest

/-- A path has between 1 and 10 hops (3 to 21 addresses, an odd number), and no flexible token is used for two hops. -/
def LegalPath (p : List Addr) : Prop :=
  p.length % 2 = 1 ∧ 3 ≤ p.length ∧ p.length ≤ 21 ∧
    ∀ i j, 2 * i + 1 < p.length → 2 * j + 1 < p.length → p[2 * i + 1]? = p[2 * j + 1]? → i = j

/-- `s` is the text of the path `as`: the addresses in order, blanks around each, commas between. -/
inductive PathText : List Char → List Addr → Prop
  | one {l r a} : (∀ c ∈ l, Text.isSpace c = true) → (∀ c ∈ r, Text.isSpace c = true) → PathText (l ++ Text.ofAddr a ++ r) [a]
  | more {l r a s as} : (∀ c ∈ l, Text.isSpace c = true) → (∀ c ∈ r, Text.isSpace c = true) → PathText s as →
      PathText (l ++ Text.ofAddr a ++ r ++ ',' :: s) (a :: as)

/-- The data `d`, sent by `s`, asks the network to convert along `path` into at least `m` for `f`: a JSON object with the text
of the path as `path`, an integer (or boolean) `minReturn`, and the text of `f` as `for` - or no `for` (or `null`), and then
the beneficiary is `s`. -/
def Requests (d : Data) (s : Addr) (path : List Addr) (m : Int) (f : Addr) : Prop :=
  ∃ fields p j, d = .json fields ∧ fields.lookup "path" = some (.str p) ∧ PathText p path ∧
    fields.lookup "minReturn" = some j ∧ (j = .int m ∨ (j = .bool true ∧ m = 1) ∨ (j = .bool false ∧ m = 0)) ∧
    ((f = s ∧ (fields.lookup "for" = none ∨ fields.lookup "for" = some .null)) ∨
      fields.lookup "for" = some (.str (Text.ofAddr f)))

/-- The ledger after network `N` has paid `r` of token `z` to the ordinary account `f`: in coin, if `z` is a registered ICX
token (then the tokens are destroyed), else in tokens. -/
def World.delivered (w : World) (N z f : Addr) (r : Int) : World :=
  if w.net N z = true then (w.mint z N (-r)).moveCoin z f r else w.pay z N f r

/-- The ledger after `v` coin was deposited into ICX token `a` by the network, for `s`. -/
def World.staked (w : World) (a N s : Addr) (v : Int) : World := ((w.moveCoin s N v).moveCoin N a v).mint a N v

/-- The network can pay `r` of token `z` to an ordinary account (if it holds them): a registered ICX token must be an ICX token
of this code base with enough coin, a flexible token must be transferable. -/
def World.deliverable (w : World) (N z : Addr) (r : Int) : Prop :=
  if w.net N z = true then w.kind z = .icx ∧ r ≤ w.coin z else w.kind z = .flex → (w.flex z).transferable = true

/-- The conditions for a conversion of `v` of `a` into at least `m` of `b` to pay `r`. -/
structure Converts (w : World) (T t a b : Addr) (v m r : Int) : Prop where
  enabled : (w.conv T).enabled = true
  active : (w.own t).owner = some T
  min : 0 < m
  tradable : w.tradable T a b
  curve : ∃ c, w.curve T a b v v = .ok c ∧ r = w.afterFee T c (w.feeSteps T a b) ∧ r ≤ c
  enough : m ≤ r
  payable : w.payable T t a b v r

/-- The ledger after the network has converted `v` of `a` into `r` of `b` at converter `T`. -/
def World.hopped (w : World) (T t a b N : Addr) (v r : Int) : World := (w.pay a N T v).traded T t a b N v r

/-- The route of `v` of `a` through the converters of a path; `m` is the minimal return for the last hop. -/
inductive Route (N : Addr) (m : Int) : World → Addr → List Addr → Int → World → Int → Prop
  | done {w : World} {a : Addr} {v : Int} : Route N m w a [] v w v
  | hop {w : World} {a ft b : Addr} {rest : List Addr} {v : Int} {T : Addr} {r1 : Int} {w' : World} {r : Int} (own : (w.own ft).owner = some T) (pos : 0 < v) (bal : v ≤ (w.tok a).bal N)
      (move : w.kind a = .flex → (w.flex a).transferable = true)
      (conv : Converts (w.pay a N T v) T ft a b v (if rest = [] then m else 1) r1)
      (next : Route N m (w.hopped T ft a b N v r1) b rest r1 w' r) : Route N m w a (ft :: b :: rest) v w' r

/-- What a path is quoted in a ledger. -/
inductive Quoted (w : World) : Addr → List Addr → Int → Int → Prop
  | done {a : Addr} {v : Int} : Quoted w a [] v v
  | hop {a ft b : Addr} {rest : List Addr} {v : Int} {T : Addr} {c r : Int} (own : (w.own ft).owner = some T)
      (curve : w.curve T a b v 0 = .ok c) (tradable : w.tradable T a b)
      (fee : w.afterFee T c (w.feeSteps T a b) ≤ c)
      (next : Quoted w b rest (w.afterFee T c (w.feeSteps T a b)) r) : Quoted w a (ft :: b :: rest) v r

/-- Who has what after `s` had `v` of `a` (of coin, if `coins`) converted by network `N` into `r` of `z` for `f`. An ICX token
registered at the network is paid out in coin. Nothing is said about the holdings of converters; everybody else, and the
network, has exactly what he had before, but for the price and the proceeds. -/
structure Settled (w w' : World) (N s a z f : Addr) (v r : Int) (coins : Bool) : Prop where
  tokens : ∀ y, y ≠ N → w.kind y ≠ .conv → ∀ q, (w'.tok q).bal y =
    (w.tok q).bal y - (if coins = false ∧ y = s ∧ q = a then v else 0) + (if w.net N z = false ∧ y = f ∧ q = z then r else 0)
  network : ∀ q, (w'.tok q).bal N = (w.tok q).bal N
  coin : ∀ y, w'.coin y = w.coin y - (if coins = true ∧ y = s then v else 0) + (if coins = true ∧ y = a then v else 0)
    - (if w.net N z = true ∧ y = z then r else 0) + (if w.net N z = true ∧ y = f then r else 0)

/-- No hop of the path sells a connector with a virtual balance. -/
def RealPath (w : World) : Addr → List Addr → Prop
  | a, ft :: b :: rest =>
    (∀ T, (w.own ft).owner = some T → a = ft ∨ ((w.conv T).connectors a).isVirtual = false) ∧ RealPath w b rest
  | _, _ => True

end Verif
