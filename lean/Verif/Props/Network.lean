import Verif.Proofs.Settle
import Verif.Proofs.Drain
import Verif.Props.Conversion
/-!
Properties C35-C41: conversions through the network. Every theorem is followed by an example on a concrete
reachable ledger.
-/
set_option autoImplicit false
set_option linter.unusedSimpArgs false
namespace Verif

open Scenario (ready ready_reachable ready2 ready2_reachable alice bob owner network)

section
variable {w w' : World} {orc : Oracle} {n : Nat} {a N s f : Addr} {v m : Int} {d : Data} {x : Val} {p : List Char}
  {path rest : List Addr}

/-! ### The ledger of the examples: two converters in a row -/

set_option maxRecDepth 100000 in
theorem ready2_wired1 : Wired ready2 Scenario.conv Scenario.flex Scenario.registry network :=
  wired_of_reachable ready2_reachable (by decide +kernel) (by decide +kernel) (by decide +kernel) (by decide +kernel)
    (by decide +kernel) (by decide +kernel) (by decide +kernel)

set_option maxRecDepth 100000 in
theorem ready2_wired2 : Wired ready2 Scenario.conv2 Scenario.flex2 Scenario.registry network :=
  wired_of_reachable ready2_reachable (by decide +kernel) (by decide +kernel) (by decide +kernel) (by decide +kernel)
    (by decide +kernel) (by decide +kernel) (by decide +kernel)

set_option maxRecDepth 100000 in
theorem ready2_facts : ready2.kind network = .net ∧ (ready2.kind Scenario.icxt).isToken ∧ (ready2.kind Scenario.flex).isToken ∧
    (ready2.kind Scenario.flex2).isToken ∧ (ready2.own Scenario.flex).owner = some Scenario.conv ∧
    (ready2.own Scenario.flex2).owner = some Scenario.conv2 := by decide +kernel

/-- From ICX to the second flexible token: buy the first one, and the second one with it. -/
def uphill : List Addr := [Scenario.icxt, Scenario.flex, Scenario.flex, Scenario.flex2, Scenario.flex2]
/-- And back to ICX. -/
def downhill : List Addr := [Scenario.flex2, Scenario.flex2, Scenario.flex, Scenario.flex, Scenario.icxt]

theorem uphill_honest : HonestPath ready2 network Scenario.icxt uphill.tail :=
  ⟨ready2_facts.2.1, ⟨_, _, ready2_facts.2.2.2.2.1, ready2_wired1⟩, ready2_facts.2.2.1,
    ⟨_, _, ready2_facts.2.2.2.2.2, ready2_wired2⟩, ready2_facts.2.2.2.1⟩

theorem downhill_honest : HonestPath ready2 network Scenario.flex2 downhill.tail :=
  ⟨ready2_facts.2.2.2.1, ⟨_, _, ready2_facts.2.2.2.2.2, ready2_wired2⟩, ready2_facts.2.2.1,
    ⟨_, _, ready2_facts.2.2.2.2.1, ready2_wired1⟩, ready2_facts.2.1⟩

theorem uphill_legal : LegalPath uphill := validPath_iff.mp (by decide)
theorem downhill_legal : LegalPath downhill := validPath_iff.mp (by decide)

theorem pathText_text : ∀ {as : List Addr}, as ≠ [] → PathText (Scenario.pathText as) as
  | [], h => absurd rfl h
  | [a], _ => by
    have := PathText.one (l := []) (r := []) (a := a) (by nofun) (by nofun)
    rw [List.append_nil] at this; exact this
  | a :: b :: as, _ => by
    have := PathText.more (l := []) (r := []) (a := a) (by nofun) (by nofun) (pathText_text (as := b :: as) (by nofun))
    rw [List.append_nil] at this; exact this

theorem request_requests (hp : path ≠ []) : Requests (Scenario.request path m) s path m s :=
  ⟨_, _, _, rfl, rfl, pathText_text hp, rfl, .inl rfl, .inl ⟨rfl, .inl rfl⟩⟩

/-! ### C35 -/

/-- C35. `getExpectedReturnByPath` fails on every illegal path. -/
theorem C35_quote_rejects (hk : w.kind N = .net) (hp : PathText p path) (hbad : ¬ LegalPath path) {cv : Int} :
    Fails w s N cv (.getExpectedReturnByPath p v) := by
  intro orc n x w' h
  exact hbad (quote_path hk h hp).2.2.1

/-- C35. `convert` and `convertFor` fail on every illegal path. -/
theorem C35_convert_rejects (hk : w.kind N = .net) (hp : PathText p path) (hbad : ¬ LegalPath path) {cv : Int} :
    Fails w s N cv (.convert p m) ∧ Fails w s N cv (.convertFor p m f) := by
  have key : ∀ {c : Call} {g : Addr}, (c = .convertFor p m g ∨ (c = .convert p m ∧ g = s)) → Fails w s N cv c := by
    intro c g hc orc n x w' h
    cases n with
    | zero => simp [ok_exec_zero] at h
    | succ n =>
      obtain ⟨_, _, path', _, _, _, _, h1, h2, _⟩ := ok_exec_convertFor hk hc h
      have e1 := pathText_iff.mpr h1; have e2 := pathText_iff.mpr hp; rw [e1] at e2; injection e2 with e
      exact hbad (e ▸ h2)
  exact ⟨key (g := s) (.inr ⟨rfl, rfl⟩), key (g := f) (.inl rfl)⟩

/-- C35. Tokens sent with a request for an illegal path are refused - by honest tokens the transfer as a whole fails. -/
theorem C35_tokens_reject (hk : w.kind N = .net) (hd : Requests d f path m s) (hbad : ¬ LegalPath path) {cv : Int} {t : Addr} :
    Fails w t N cv (.tokenFallback f v d) := by
  intro orc n x w' h
  cases n with
  | zero => simp [ok_exec_zero] at h
  | succ n =>
    obtain ⟨_, path', m', g, r, h1, _, _, _, h2, _⟩ := ok_exec_netFallback hk h (asks_of_requests_ne hd)
    obtain ⟨rfl, _, _⟩ := requests_unique h1 hd
    exact hbad h2

/-- C35. Nothing but legality is asked of a path: over honest converters a legal path is quoted if and only if its hops are,
one after the other; the answer is what they come to. -/
theorem C35_quote_iff (h : Reachable w) (hk : w.kind N = .net) (hp : PathText p (a :: rest)) (hh : HonestPath w N a rest) :
    (∃ w', exec orc (n + 3) s N 0 (.getExpectedReturnByPath p v) w = .ok (x, w')) ↔
    LegalPath (a :: rest) ∧ 0 < v ∧ ∃ r, x = .int r ∧ Quoted w a rest v r := quote_iff h.basic hk hp hh

/-- C35. Likewise for conversions: tokens sent by `s` are converted for the ordinary account `f` if and only if the path is
legal, the minimal return positive, the tokens there (and transferable), every hop can be made, and the proceeds paid. -/
theorem C35_convert_iff (h : Reachable w) (hk : w.kind N = .net) (hp : HonestPath w N a rest)
    (hd : Requests d s (a :: rest) m f) (hf : f.isContract = false) (hs : s ≠ N) :
    (∃ x w', exec orc (n + 6) s a 0 (.transfer N v (some d)) w = .ok (x, w')) ↔
    (w.kind a = .flex → (w.flex a).transferable = true) ∧ v ≤ (w.tok a).bal s ∧ 0 < m ∧ f ≠ ZERO ∧ LegalPath (a :: rest) ∧
    ∃ u' r, Route N m (w.pay a s N v) a rest v u' r ∧ u'.deliverable N (lastOf a rest) r :=
  sent_iff h.basic (fun z => (C01_supply_is_sum h z).2.1 N) hk hp hd hf hs

/-- C35. And for coin. -/
theorem C35_convert_coin_iff (h : Reachable w) (hk : w.kind N = .net) (hp : HonestPath w N a rest) (ht : PathText p (a :: rest))
    {c : Call} (hc : c = .convertFor p m f ∨ (c = .convert p m ∧ f = s)) (hf : f.isContract = false) (hs : s ≠ N) :
    (∃ x w', exec orc (n + 5) s N v c w = .ok (x, w')) ↔
    0 < m ∧ f ≠ ZERO ∧ LegalPath (a :: rest) ∧ w.net N a = true ∧ w.kind a = .icx ∧ v ≤ w.coin s ∧
    ∃ u' r, Route N m (w.staked a N s v) a rest v u' r ∧ u'.deliverable N (lastOf a rest) r :=
  staked_iff h.basic (fun z => (C01_supply_is_sum h z).2.1 N) hk hp ht hc hf hs

/-- C35: legal and illegal paths. Two hops through different converters; an even number of addresses; only one address; the
same flexible token twice; eleven hops. -/
example (q : Fin 11 → Addr) : LegalPath uphill ∧ ¬ LegalPath [alice, bob] ∧ ¬ LegalPath [alice] ∧
    ¬ LegalPath [alice, bob, alice, bob, alice] ∧ ¬ LegalPath (alice :: (List.ofFn fun i => [q i, q i]).flatten) := by
  refine ⟨uphill_legal, fun h => ?_, fun h => ?_, fun h => ?_, fun h => ?_⟩
  · have := h.1; simp at this
  · have := h.2.1; simp at this
  · have := h.2.2.2 0 1 (by simp) (by simp) rfl; simp at this
  · have := h.2.2.1; simp [List.ofFn_succ] at this

set_option maxRecDepth 100000 in
/-- C35: both paths are quoted; the illegal one is not. -/
example : Scenario.answer alice network (.getExpectedReturnByPath (Scenario.pathText uphill) 300) ready2 = .ok (.int 147) ∧
    Scenario.answer alice network (.getExpectedReturnByPath (Scenario.pathText downhill) 1000) ready2 = .ok (.int 1942) ∧
    (Scenario.answer alice network (.getExpectedReturnByPath (Scenario.pathText (uphill ++ downhill.tail)) 300) ready2).isOk = false := by
  decide +kernel

/-! ### C36 -/

/-- C36. A string is the text of at most one path. -/
theorem C36_unambiguous {as as' : List Addr} (h : PathText p as) (h' : PathText p as') : as = as' := by
  have e1 := pathText_iff.mpr h; have e2 := pathText_iff.mpr h'; rw [e1] at e2; injection e2

/-- C36. The addresses, each surrounded by any blanks, with commas between them, are a text of the path. -/
theorem C36_written (q : List (List Char × Addr × List Char)) (hne : q ≠ [])
    (hb : ∀ i ∈ q, (∀ c ∈ i.1, Text.isSpace c = true) ∧ ∀ c ∈ i.2.2, Text.isSpace c = true) :
    PathText ([','].intercalate (q.map fun i => i.1 ++ Text.ofAddr i.2.1 ++ i.2.2)) (q.map fun i => i.2.1) := by
  induction q with
  | nil => exact absurd rfl hne
  | cons i q ih =>
    have hi := hb i List.mem_cons_self
    cases q with
    | nil => simpa using PathText.one (a := i.2.1) hi.1 hi.2
    | cons j q =>
      have := PathText.more (a := i.2.1) hi.1 hi.2 (ih (by nofun) (fun k hk => hb k (List.mem_cons_of_mem _ hk)))
      simpa [List.intercalate, List.intersperse] using this

/-- C36. Any other string is rejected by every method that takes a path. -/
theorem C36_rejects (hk : w.kind N = .net) (hbad : ∀ as, ¬ PathText p as) {cv : Int} :
    Fails w s N cv (.getExpectedReturnByPath p v) ∧ Fails w s N cv (.convert p m) ∧ Fails w s N cv (.convertFor p m f) := by
  have key : ∀ {c : Call} {g : Addr}, (c = .convertFor p m g ∨ (c = .convert p m ∧ g = s)) → Fails w s N cv c := by
    intro c g hc orc n x w' h
    cases n with
    | zero => simp [ok_exec_zero] at h
    | succ n =>
      obtain ⟨_, _, path', _, _, _, _, h1, _⟩ := ok_exec_convertFor hk hc h
      exact hbad _ h1
  refine ⟨fun orc n x w' h => ?_, key (g := s) (.inr ⟨rfl, rfl⟩), key (g := f) (.inl rfl)⟩
  cases n with
  | zero => simp [ok_exec_zero] at h
  | succ n =>
    rw [ok_exec_net hk] at h
    have e : Network.dispatch { fr := mkFrame w s N cv (.getExpectedReturnByPath p v), call := exec orc n N } =
        runNonPayable { fr := mkFrame w s N cv (.getExpectedReturnByPath p v), call := exec orc n N }
          (some do return .int (← Network.getExpectedReturnByPath { fr := mkFrame w s N cv (.getExpectedReturnByPath p v), call := exec orc n N } p v)) := rfl
    rw [e, ok_runNonPayable, ok_view] at h
    obtain ⟨_, _, r, h, _⟩ := h
    unfold Network.getExpectedReturnByPath at h
    rw [okk_bind] at h
    obtain ⟨path', w1, h1, h⟩ := h
    rw [readPath_ok] at h1
    exact hbad _ h1.1

/-- C36. Tokens that come with data that is no request (and does not announce a converter's payment) are refused, whoever
calls; and a request is read in one way only. -/
theorem C36_requests (hk : w.kind N = .net) {cv : Int} {t : Addr} :
    ((∀ path m g, ¬ Requests d f path m g) → d ≠ .conversionResult → Fails w t N cv (.tokenFallback f v d)) ∧
    ∀ path m g path' m' g', Requests d f path m g → Requests d f path' m' g' → path = path' ∧ m = m' ∧ g = g' := by
  refine ⟨fun hno hd orc n x w' h => ?_, fun _ _ _ _ _ _ h h' => requests_unique h h'⟩
  cases n with
  | zero => simp [ok_exec_zero] at h
  | succ n =>
    obtain ⟨_, _, _, _, _, h1, _⟩ := ok_exec_netFallback hk h hd
    exact hno _ _ _ h1

/-- C36. The way the path is written does not matter: for two texts of a path the answers are the same. -/
theorem C36_same_quote (h : Reachable w) (hk : w.kind N = .net) (hh : HonestPath w N a rest) {p' : List Char}
    (hp : PathText p (a :: rest)) (hp' : PathText p' (a :: rest)) :
    (∃ w', exec orc (n + 3) s N 0 (.getExpectedReturnByPath p v) w = .ok (x, w')) ↔
    ∃ w', exec orc (n + 3) s N 0 (.getExpectedReturnByPath p' v) w = .ok (x, w') := by
  rw [C35_quote_iff h hk hp hh, C35_quote_iff h hk hp' hh]

/-- C36. What the network asks of a converter is read back: the same token, the same minimal return, nothing else. -/
theorem C36_converter_request (b b' : Addr) (m m' : Int) : Asks (Network.requestData b m) b' m' ↔ b' = b ∧ m' = m := by
  constructor
  · rintro ⟨fields, t, j, h1, h2, h3, h4, h5⟩
    cases h1
    have h2 : some (JVal.str (Text.ofAddr b)) = some (.str t) := h2
    have h4 : some (JVal.int m) = some j := h4
    injection h2 with h2; injection h2 with h2; subst h2
    injection h4 with h4; subst h4
    rw [Text.toAddr_ofAddr] at h3
    injection h3 with h3
    refine ⟨h3.symm, ?_⟩
    rcases h5 with h5 | h5 | ⟨h5, _⟩ | ⟨h5, _⟩
    · injection h5 with h5; exact h5.symm
    · cases h5
    · cases h5
    · cases h5
  · rintro ⟨rfl, rfl⟩; exact asks_request

/-- C36: a path with blanks and line feeds in it, and a string that is no path. -/
example : PathText (" ".toList ++ Text.ofAddr Scenario.icxt ++ "\n\t".toList ++ ',' :: Text.ofAddr Scenario.flex) [Scenario.icxt, Scenario.flex] ∧
    ∀ as, ¬ PathText (Text.ofAddr Scenario.icxt ++ ";".toList) as := by
  refine ⟨pathText_iff.mp (by decide +kernel), fun as h => ?_⟩
  have := pathText_iff.mpr h
  rw [show Text.convertPath (Text.ofAddr Scenario.icxt ++ ";".toList) = none by decide +kernel] at this
  cases this

/-! ### C37 -/

/-- C37. Tokens converted through the network for an ordinary account: it gets at least the minimal return of the last token
(coin, if that is a registered ICX token), the sender has paid exactly `v`, and nobody outside the converters gains or loses
anything else. -/
theorem C37_tokens (h : Reachable w) (hk : w.kind N = .net) (hp : HonestPath w N a rest) (hd : Requests d s (a :: rest) m f)
    (hf : f.isContract = false) (hs : s ≠ N) (hx : exec orc n s a 0 (.transfer N v (some d)) w = .ok (x, w')) :
    ∃ r, m ≤ r ∧ 0 < r ∧ Settled w w' N s a (lastOf a rest) f v r false := by
  obtain ⟨u', r, _, _, _, _, h1, h2, h3⟩ := sent_settled h.basic hk hp hd hf hs hx
  exact ⟨r, h1, h2, h3⟩

/-- C37. The same for coin; the amount paid is returned. -/
theorem C37_coin (h : Reachable w) (hk : w.kind N = .net) (hp : HonestPath w N a rest) (ht : PathText p (a :: rest))
    {c : Call} (hc : c = .convertFor p m f ∨ (c = .convert p m ∧ f = s)) (hf : f.isContract = false) (hs : s ≠ N)
    (hx : exec orc n s N v c w = .ok (x, w')) :
    ∃ r, x = .int r ∧ m ≤ r ∧ 0 < r ∧ Settled w w' N s a (lastOf a rest) f v r true := by
  obtain ⟨u', r, h0, _, _, _, _, h1, h2, h3⟩ := staked_settled h.basic hk hp ht hc hf hs hx
  exact ⟨r, h0, h1, h2, h3⟩

/-- C37. Any beneficiary, contracts included: the conversion ends with the network ordering the last token to pay at least the
minimal return to the beneficiary, and that order is carried out. (What the order does is C02 and C10; what a contract does
with the money when it is told of it is its own affair.) -/
theorem C37_tokens_ordered (h : Reachable w) (hk : w.kind N = .net) (hp : HonestPath w N a rest) (hd : Requests d s (a :: rest) m f)
    (hx : exec orc n s a 0 (.transfer N v (some d)) w = .ok (x, w')) :
    ∃ r fr, m ≤ r ∧ 0 < r ∧ Called w w' fr ∧ fr.sender = N ∧ fr.to = lastOf a rest ∧ fr.value = 0 ∧
      fr.call = if w.net N (lastOf a rest) = true then .withdrawTo r f else .transfer f r (some .noneBytes) := by
  obtain ⟨h1, h2, h3, h4, u', r, n', w1, y, w2, hr, hal, ⟨l0, hl0⟩, h5, hal2, hfr⟩ := sent_route h.basic hk hp hd hx
  have hm := hr.min (LegalPath.stops h3).2.1
  obtain ⟨l, hl⟩ := exec_head h5
  refine ⟨r, mkFrame w1 N (lastOf a rest) 0 (payCall u' N (lastOf a rest) f r), hm.1, hm.2.1, ?_, rfl, rfl, rfl, ?_⟩
  · refine ⟨l ++ mkFrame w1 N (lastOf a rest) 0 (payCall u' N (lastOf a rest) f r) :: l0, ?_, by simp⟩
    rw [← hfr, hl, ← hl0]; simp
  · rw [mkFrame_call, payCall, hr.net, pay_net]

/-- C37. Likewise for coin. -/
theorem C37_coin_ordered (h : Reachable w) (hk : w.kind N = .net) (hp : HonestPath w N a rest) (ht : PathText p (a :: rest))
    {c : Call} (hc : c = .convertFor p m f ∨ (c = .convert p m ∧ f = s)) (hx : exec orc n s N v c w = .ok (x, w')) :
    ∃ r fr, x = .int r ∧ m ≤ r ∧ 0 < r ∧ Called w w' fr ∧ fr.sender = N ∧ fr.to = lastOf a rest ∧ fr.value = 0 ∧
      fr.call = if w.net N (lastOf a rest) = true then .withdrawTo r f else .transfer f r (some .noneBytes) := by
  obtain ⟨h1, h2, h3, h4, _, _, _, _, u', r, n', w1, y, hxr, hr, hal, ⟨l0, hl0⟩, h5⟩ := staked_route h.basic hk hp ht hc hx
  have hm := hr.min (LegalPath.stops h4).2.1
  obtain ⟨l, hl⟩ := exec_head h5
  refine ⟨r, mkFrame w1 N (lastOf a rest) 0 (payCall u' N (lastOf a rest) f r), hxr, hm.1, hm.2.1, ?_, rfl, rfl, rfl, ?_⟩
  · refine ⟨l ++ mkFrame w1 N (lastOf a rest) 0 (payCall u' N (lastOf a rest) f r) :: l0, ?_, by simp⟩
    rw [hl, ← hl0]; simp
  · rw [mkFrame_call, payCall, hr.net]; rfl

/-- The ledger after Alice's conversion of 1000 of the second flexible token into coin, or of 300 coin into that token for Bob. -/
def soldDown (m : Int) : World := Scenario.run [Scenario.trade downhill 1000 m] ready2
def boughtUp (m : Int) : World := Scenario.run [.call alice network 300 (.convertFor (Scenario.pathText uphill) m bob)] ready2

set_option maxRecDepth 100000 in
/-- C37: exactly what was quoted is paid; asking for one more makes the conversion fail. -/
example : (soldDown 1942).coin alice = ready2.coin alice + 1942 ∧
    ((soldDown 1942).tok Scenario.flex2).bal alice = (ready2.tok Scenario.flex2).bal alice - 1000 ∧
    (soldDown 1943).coin alice = ready2.coin alice ∧ ((soldDown 1943).tok Scenario.flex2).bal alice = (ready2.tok Scenario.flex2).bal alice ∧
    ((boughtUp 147).tok Scenario.flex2).bal bob = (ready2.tok Scenario.flex2).bal bob + 147 ∧
    (boughtUp 147).coin alice = ready2.coin alice - 300 ∧ (boughtUp 148).coin alice = ready2.coin alice := by decide +kernel

/-- C37: the hypotheses are met. -/
example : Reachable ready2 ∧ ready2.kind network = .net ∧ HonestPath ready2 network Scenario.flex2 downhill.tail ∧
    Requests (Scenario.request downhill 1942) alice downhill 1942 alice ∧ alice.isContract = false ∧ alice ≠ network ∧
    HonestPath ready2 network Scenario.icxt uphill.tail ∧ PathText (Scenario.pathText uphill) uphill :=
  ⟨ready2_reachable, ready2_facts.1, downhill_honest, request_requests (by nofun), rfl, by decide, uphill_honest, pathText_text (by nofun)⟩

/-! ### C38 -/

/-- C38. After a conversion the network has of every token (in the path or not), and of coin, exactly what it had before. -/
theorem C38_tokens (h : Reachable w) (hk : w.kind N = .net) (hp : HonestPath w N a rest) (hd : Requests d s (a :: rest) m f)
    (hf : f.isContract = false) (hs : s ≠ N) (hx : exec orc n s a 0 (.transfer N v (some d)) w = .ok (x, w')) :
    (∀ q, (w'.tok q).bal N = (w.tok q).bal N) ∧ w'.coin N = w.coin N := by
  obtain ⟨u', r, hr, hp', _, _, h1, h2, h3⟩ := sent_settled h.basic hk hp hd hf hs hx
  refine ⟨h3.network, ?_⟩
  have hz : N ≠ lastOf a rest := by
    intro e
    obtain ⟨_, _, hl, _⟩ := sent_route h.basic hk hp hd hx
    have := hp.last (LegalPath.stops hl).1
    rw [← e, hk] at this
    rcases this with h | h | h <;> cases h
  have hfN : N ≠ f := by rintro rfl; rw [h.basic.contract N (by rw [hk]; nofun)] at hf; cases hf
  rw [h3.coin]; simp [hz, hfN]

/-- C38. The same for coin. -/
theorem C38_coin (h : Reachable w) (hk : w.kind N = .net) (hp : HonestPath w N a rest) (ht : PathText p (a :: rest))
    {c : Call} (hc : c = .convertFor p m f ∨ (c = .convert p m ∧ f = s)) (hf : f.isContract = false) (hs : s ≠ N)
    (hx : exec orc n s N v c w = .ok (x, w')) :
    (∀ q, (w'.tok q).bal N = (w.tok q).bal N) ∧ w'.coin N = w.coin N := by
  obtain ⟨u', r, _, hr, hp', _, _, h1, h2, h3⟩ := staked_settled h.basic hk hp ht hc hf hs hx
  refine ⟨h3.network, ?_⟩
  obtain ⟨_, _, _, hl, _, _, _, hicx, _⟩ := staked_route h.basic hk hp ht hc hx
  have hz : N ≠ lastOf a rest := by
    intro e
    have := hp.last (LegalPath.stops hl).1
    rw [← e, hk] at this
    rcases this with h | h | h <;> cases h
  have ha : N ≠ a := by rintro rfl; rw [hk] at hicx; cases hicx
  have hfN : N ≠ f := by rintro rfl; rw [h.basic.contract N (by rw [hk]; nofun)] at hf; cases hf
  rw [h3.coin]; simp [hz, hfN, ha, hs.symm]

set_option maxRecDepth 100000 in
/-- C38: the network ends with nothing, here, as it started - even if somebody gave it tokens before, they stay there. -/
example : ((soldDown 1).tok Scenario.flex).bal network = 0 ∧ ((soldDown 1).tok Scenario.icxt).bal network = 0 ∧ (soldDown 1).coin network = 0 ∧
    let gift : Tx := .call alice Scenario.flex 0 (.transfer network 77 (some .conversionResult))
    let w := Scenario.run [gift, Scenario.trade downhill 1000 1] ready2
    (w.tok Scenario.flex).bal network = 77 ∧ w.coin alice = (soldDown 1).coin alice := by decide +kernel

/-! ### C40 -/

theorem agree_pay (hp : HonestPath w N a rest) (hs : w.kind s ≠ .conv) : Agree w (w.pay a s N v) (stops rest) := by
  refine ⟨rfl, fun ft hft T hT => ⟨rfl, ?_, fun z => ?_⟩⟩
  · unfold World.pay; rw [setTok_tok]; split
    · subst a; rfl
    · rfl
  · obtain ⟨T', R, h1, h2⟩ := hp.stop ft hft
    rw [hT] at h1; cases h1
    have h3 : T ≠ s := by rintro rfl; exact hs h2.conv
    rw [pay_bal]; simp [h3, h2.ne.symm]

theorem agree_staked (hp : HonestPath w N a rest) (ha : w.kind a = .icx) : Agree w (w.staked a N s v) (stops rest) := by
  refine ⟨rfl, fun ft hft T hT => ⟨rfl, ?_, fun z => ?_⟩⟩
  · obtain ⟨T', R, h1, h2⟩ := hp.stop ft hft
    have h3 : ft ≠ a := by rintro rfl; have := h2.flex; rw [ha] at this; cases this
    unfold World.staked World.mint; rw [setTok_tok, if_neg h3]; rfl
  · obtain ⟨T', R, h1, h2⟩ := hp.stop ft hft
    rw [hT] at h1; cases h1
    unfold World.staked; rw [mint_bal]; simp [h2.ne.symm]

/-- C40. If `getExpectedReturnByPath` answers `q` and, in the same ledger, `v` of the first token are converted along the path,
the beneficiary is paid exactly `q` - provided no converter on the path reckons a virtual balance for the connector it is
given. -/
theorem C40_tokens (h : Reachable w) (hk : w.kind N = .net) (hp : HonestPath w N a rest) (hreal : RealPath w a rest)
    {orc' : Oracle} {n' : Nat} {s' : Addr} {cv q : Int} {w1 : World} (ht : PathText p (a :: rest))
    (hq : exec orc' n' s' N cv (.getExpectedReturnByPath p v) w = .ok (.int q, w1))
    (hd : Requests d s (a :: rest) m f) (hf : f.isContract = false) (hs : s ≠ N) (hsc : w.kind s ≠ .conv)
    (hx : exec orc n s a 0 (.transfer N v (some d)) w = .ok (x, w')) :
    m ≤ q ∧ Settled w w' N s a (lastOf a rest) f v q false := by
  obtain ⟨u', r, hr, hp', hne, hnd, h1, h2, h3⟩ := sent_settled h.basic hk hp hd hf hs hx
  obtain ⟨_, _, _, a', rest', e, h4⟩ := quote_path hk hq ht
  injection e with e1 e2; subst e1; subst e2
  obtain ⟨r', h5, h6, _⟩ := h4 hp
  injection h5 with h5; subst h5
  have := route_quoted h6 hr hp hreal hnd hp' (agree_pay hp hsc)
  subst this
  exact ⟨h1, h3⟩

/-- C40. The same for coin. -/
theorem C40_coin (h : Reachable w) (hk : w.kind N = .net) (hp : HonestPath w N a rest) (hreal : RealPath w a rest)
    {orc' : Oracle} {n' : Nat} {s' : Addr} {cv q : Int} {w1 : World} (ht : PathText p (a :: rest))
    (hq : exec orc' n' s' N cv (.getExpectedReturnByPath p v) w = .ok (.int q, w1))
    {c : Call} {p' : List Char} (ht' : PathText p' (a :: rest)) (hc : c = .convertFor p' m f ∨ (c = .convert p' m ∧ f = s))
    (hf : f.isContract = false) (hs : s ≠ N) (hx : exec orc n s N v c w = .ok (x, w')) :
    x = .int q ∧ m ≤ q ∧ Settled w w' N s a (lastOf a rest) f v q true := by
  obtain ⟨u', r, h0, hr, hp', hne, hnd, h1, h2, h3⟩ := staked_settled h.basic hk hp ht' hc hf hs hx
  obtain ⟨_, _, _, _, _, _, _, hicx, _⟩ := staked_route h.basic hk hp ht' hc hx
  obtain ⟨_, _, _, a', rest', e, h4⟩ := quote_path hk hq ht
  injection e with e1 e2; subst e1; subst e2
  obtain ⟨r', h5, h6, _⟩ := h4 hp
  injection h5 with h5; subst h5
  have := route_quoted h6 hr hp hreal hnd hp' (agree_staked hp hicx)
  subst this
  exact ⟨h0, h1, h3⟩

set_option maxRecDepth 100000 in
/-- C40: no connector is virtual here, and 147 and 1942 are what was quoted under C35 and paid under C37. -/
example : RealPath ready2 Scenario.icxt uphill.tail ∧ RealPath ready2 Scenario.flex2 downhill.tail ∧ ready2.kind alice ≠ .conv := by
  have h1 := ready2_facts.2.2.2.2.1
  have h2 := ready2_facts.2.2.2.2.2
  have h3 : ((ready2.conv Scenario.conv).connectors Scenario.icxt).isVirtual = false ∧
      ((ready2.conv Scenario.conv2).connectors Scenario.flex).isVirtual = false ∧ ready2.kind alice ≠ .conv := by decide +kernel
  refine ⟨⟨fun T hT => .inr ?_, fun T hT => .inr ?_, trivial⟩, ⟨fun T hT => .inl rfl, fun T hT => .inl rfl, trivial⟩, h3.2.2⟩
  · rw [h1] at hT; cases hT; exact h3.1
  · rw [h2] at hT; cases hT; exact h3.2.1

/-! ### C41 -/

/-- C41. `convert` and `convertFor` succeed only if the path is legal and starts at a registered ICX token, the minimal return is
positive, and the beneficiary is neither the zero address nor the network. -/
theorem C41_conditions (hk : w.kind N = .net) {c : Call} (hc : c = .convertFor p m f ∨ (c = .convert p m ∧ f = s))
    (hx : exec orc n s N v c w = .ok (x, w')) :
    0 < m ∧ f ≠ ZERO ∧ f ≠ N ∧ 0 ≤ v ∧ v ≤ w.coin s ∧ ∃ a rest, PathText p (a :: rest) ∧ LegalPath (a :: rest) ∧ w.net N a = true := by
  cases n with
  | zero => simp [ok_exec_zero] at hx
  | succ n =>
    obtain ⟨h1, h2, path, r, y, w1, _, h3, h4, h5, h6, h7, a, rest, rfl, h8, _⟩ := ok_exec_convertFor hk hc hx
    exact ⟨h5, h6, h7, h1, h2, a, rest, h3, h4, h8⟩

/-- C41. Likewise for tokens, whoever calls the network and whatever contracts the path leads to: the network accepts a request
only if it comes from the first token of the path, the path is legal, the minimal return is positive, and the beneficiary is
not the zero address. (That the beneficiary is not the network is not checked here, network.py:170-183.) -/
theorem C41_conditions_tokens (hk : w.kind N = .net) (hd : d ≠ .conversionResult) {t : Addr} {cv : Int}
    (hx : exec orc n t N cv (.tokenFallback f v d) w = .ok (x, w')) :
    ∃ rest m g, Requests d f (t :: rest) m g ∧ LegalPath (t :: rest) ∧ 0 < m ∧ g ≠ ZERO ∧ cv = 0 := by
  cases n with
  | zero => simp [ok_exec_zero] at hx
  | succ n =>
    obtain ⟨hcv, path', m', g, r, h1, h0, h3, h4, h2, _⟩ := ok_exec_netFallback hk hx hd
    obtain ⟨rest, rfl⟩ : ∃ rest, path' = t :: rest := by
      cases path' with
      | nil => cases h0
      | cons a rest => injection h0 with h0; exact ⟨rest, by rw [h0]⟩
    exact ⟨rest, m', g, h1, h2, h3, h4, hcv⟩

/-- C41. Registration: exact effect, and when it succeeds. -/
theorem C41_register (hk : w.kind N = .net) {b : Bool} :
    exec orc (n + 1) s N v (.registerIcxToken a b) w = .ok (x, w') ↔ v = 0 ∧ 0 ≤ w.coin s ∧ x = .unit ∧
    (w.own N).owner = some s ∧ a ≠ ZERO ∧ a ≠ N ∧ w' = (w.note s N 0 (.registerIcxToken a b)).setNet N (upd (w.net N) a b) :=
  ok_exec_registerIcxToken hk

/-- C41. What `getIcxTokenRegistered` answers. -/
theorem C41_registered (hk : w.kind N = .net) : Answers w N (.getIcxTokenRegistered a) (.bool (w.net N a)) := by
  intro orc n s hs
  refine ⟨w.note s N 0 (.getIcxTokenRegistered a), ?_⟩
  rw [ok_exec_net hk]
  refine ⟨⟨Int.le_refl 0, hs⟩, ?_⟩
  rw [enterW_zero]
  rfl

/-- C41. Only the network's owner registers and unregisters ICX tokens: if the registration of `a` differs after a transaction,
the owner made the matching call in it. -/
theorem C41_only_owner {orc : Oracle} {fuel : Nat} {tx : Tx} {w : World} {N a : Addr} (hk : w.kind N = .net)
    (h : (tx.apply orc fuel w).net N a ≠ w.net N a) :
    ∃ f, Called w (tx.apply orc fuel w) f ∧ f.to = N ∧ f.call = .registerIcxToken a ((tx.apply orc fuel w).net N a) ∧ f.owner = some f.sender := by
  have key := (tx_steps orc fuel tx w).blame (T := N)
    (R := fun u u' => (tx.apply orc fuel w).net N a ≠ u.net N a → (tx.apply orc fuel w).net N a ≠ u'.net N a)
    (P := fun f => f.call = .registerIcxToken a ((tx.apply orc fuel w).net N a) ∧ f.owner = some f.sender) (by rw [hk]; rintro ⟨⟩) ?_ ?_ ?_
  · rcases key with key | ⟨f, h1, h2, h3⟩
    · exact absurd rfl (key h)
    · exact ⟨f, h1, h2, h3⟩
  · intro _ _ hs; rw [hs.net]; exact id
  · intro _ _ _ h1 h2 h3; exact h2 (h1 h3)
  · intro f u u' hu hf hl
    cases hl with
    | registerIcx b c _ hc ho _ _ =>
      rw [hf] at *
      by_cases e : a = b ∧ (tx.apply orc fuel w).net N a = c
      · obtain ⟨rfl, e⟩ := e; right; rw [e]; exact ⟨hc, ho⟩
      · left; intro h1
        rw [setNet_net, if_pos rfl, upd_apply]
        split
        · rename_i h2; exact fun h3 => e ⟨h2, h3⟩
        · exact h1
    | _ => exact .inl id

set_option maxRecDepth 100000 in
/-- C41: the owner unregisters the ICX token, and coin is not converted any more; nobody else can do it. -/
example : let off : World := Scenario.run [.call owner network 0 (.registerIcxToken Scenario.icxt false)] ready2
    off.net network Scenario.icxt = false ∧ ready2.net network Scenario.icxt = true ∧
    (Scenario.run [.call alice network 300 (.convertFor (Scenario.pathText uphill) 1 bob)] off).coin alice = ready2.coin alice ∧
    (boughtUp 1).coin alice = ready2.coin alice - 300 ∧
    (Scenario.run [.call alice network 0 (.registerIcxToken Scenario.icxt false)] ready2).net network Scenario.icxt = true := by
  decide +kernel

/-! ### C39: tokens held by the network -/

/-- C39. Whatever anybody does in a transaction, with any third-party contracts and any re-entrance: the network's balance of an
IRC or ICX token goes down only if the network's owner withdrew that token in this transaction. -/
theorem C39_held {orc : Oracle} {fuel : Nat} {tx : Tx} {w : World} {N X : Addr} (hr : Reachable w) (hN : w.kind N = .net)
    (hX : w.kind X = .irc ∨ w.kind X = .icx) (h : ((tx.apply orc fuel w).tok X).bal N < (w.tok X).bal N) :
    ∃ f b v, Called w (tx.apply orc fuel w) f ∧ f.to = N ∧ f.owner = some f.sender ∧ f.call = .withdrawTokens X b v := by
  have hT : (w.kind X).isToken := hX.imp id .inl
  rcases keeps_tx (orc := orc) (w := w) fuel tx hN hT (hr.basic.contract _ (by rw [hN]; rintro ⟨⟩))
      (hr.basic.contract _ (by rcases hX with e | e <;> rw [e] <;> rintro ⟨⟩)) with ⟨f, h1, h2⟩ | h1
  · rcases h2 with ⟨h2, h3, b, v, h4⟩ | ⟨h2, _⟩
    · exact ⟨f, b, v, h1, h2, h3, h4⟩
    · rcases hX with e | e <;> (rw [e] at h2; cases h2)
  · omega

/-- C39. The network's balance of a flexible token goes down only if the network's owner withdrew it, or the token's owner destroyed
tokens of the network. -/
theorem C39_flexible {orc : Oracle} {fuel : Nat} {tx : Tx} {w : World} {N X : Addr} (hr : Reachable w) (hN : w.kind N = .net)
    (hX : w.kind X = .flex) (h : ((tx.apply orc fuel w).tok X).bal N < (w.tok X).bal N) :
    ∃ f, Called w (tx.apply orc fuel w) f ∧ f.owner = some f.sender ∧
      ((f.to = N ∧ ∃ b v, f.call = .withdrawTokens X b v) ∨ (f.to = X ∧ ∃ v, f.call = .destroy N v)) := by
  rcases keeps_tx (orc := orc) (w := w) fuel tx hN (.inr (.inr hX)) (hr.basic.contract _ (by rw [hN]; rintro ⟨⟩))
      (hr.basic.contract _ (by rw [hX]; rintro ⟨⟩)) with ⟨f, h1, h2⟩ | h1
  · rcases h2 with ⟨h2, h3, h4⟩ | ⟨_, h2, h3, h4⟩
    · exact ⟨f, h1, h3, .inl ⟨h2, h4⟩⟩
    · exact ⟨f, h1, h3, .inr ⟨h2, h4⟩⟩
  · omega

/-- C39. If a flexible token is owned by a converter (throughout the transaction), its balance at the network goes down only if the network's owner withdrew it. -/
theorem C39_converted {orc : Oracle} {fuel : Nat} {tx : Tx} {w : World} {N X T : Addr} (hr : Reachable w) (hN : w.kind N = .net)
    (hX : w.kind X = .flex) (hkeep : ∀ f, Called w (tx.apply orc fuel w) f → f.to = X → f.owner = some T) (hT : w.kind T = .conv)
    (h : ((tx.apply orc fuel w).tok X).bal N < (w.tok X).bal N) :
    ∃ f b v, Called w (tx.apply orc fuel w) f ∧ f.to = N ∧ f.owner = some f.sender ∧ f.call = .withdrawTokens X b v := by
  obtain ⟨f, h1, h2, ⟨h3, b, v, h4⟩ | ⟨h3, v, h4⟩⟩ := C39_flexible hr hN hX h
  · exact ⟨f, b, v, h1, h3, h2, h4⟩
  · exfalso
    have hs : f.sender = T := by rw [hkeep f h1 h3] at h2; injection h2 with h2; exact h2.symm
    have hkT : (tx.apply orc fuel w).kind T = .conv := by
      rw [(tx_steps orc fuel tx w).kind (by rw [hT]; rintro ⟨⟩)]; exact hT
    rcases tx_origin h1 with ho | ⟨f', u, _, o2, o3, o4⟩
    · rw [hs, hr.basic.contract T (by rw [hT]; rintro ⟨⟩)] at ho; cases ho
    · rw [hs] at o2
      rw [h3, h4] at o3
      have hu : u.kind T ≠ .none → u.kind T = .conv := fun e => (o4 T e).symm.trans hkT
      generalize f.value = val at o3
      cases o3 with
      | foreign _ _ _ hf => rw [o2] at hf; rw [hu (by rw [hf]; rintro ⟨⟩)] at hf; cases hf
      | convView _ _ _ e => rcases e with e | e | e | ⟨_, e⟩ <;> cases e
      | convToken _ _ _ _ _ e => rcases e with ⟨_, _, e⟩ | ⟨_, e⟩ | ⟨_, _, e⟩ | ⟨_, _, _, _, e⟩ <;> cases e
      | convDestroy => rw [o2, hT] at hN; cases hN
      | net _ _ _ hf => rw [o2] at hf; rw [hu (by rw [hf]; rintro ⟨⟩)] at hf; cases hf

/-- Tokens that were sent to the network by mistake stay there: the network accepts the data `conversionResult` from anyone. -/
def stocked : World := Scenario.run [.call alice Scenario.irc 0 (.transfer network 700 (some .conversionResult))] ready

theorem stocked_reachable : Reachable stocked := Scenario.run_reachable _ ready_reachable

/-- A malicious token: when it is sent a plain transfer it claims that 1000 of it were sent to the network for conversion into the
honest token, and it answers that it is its own converter. -/
def thief : Oracle := fun f => match f.call with
  | .fallback => .call network 0 (.tokenFallback alice 1000 (Scenario.request [Scenario.evil, Scenario.evil, Scenario.irc] 1)) fun _ => .ret .unit
  | .getOwner => .ret (.addr (some Scenario.evil))
  | _ => .ret .unit

/-- The malicious token is deployed and does its best. -/
def attacked : World := (Tx.call alice Scenario.evil 0 .fallback).apply thief 20 ((Tx.deploy alice Scenario.evil .foreign).apply thief 20 stocked)

set_option maxRecDepth 100000 in
/-- C39: the conversion of the fake token goes through (its calls are on record), but the network keeps its 700 tokens; the owner's
withdrawal takes them. -/
example : (stocked.tok Scenario.irc).bal network = 700 ∧
    (attacked.tok Scenario.irc).bal network = 700 ∧ attacked.frames.length = stocked.frames.length + 8 ∧
    ((Scenario.run [.call owner network 0 (.withdrawTokens Scenario.irc bob 600)] attacked).tok Scenario.irc).bal network = 100 ∧
    ((Scenario.run [.call alice network 0 (.withdrawTokens Scenario.irc alice 600)] attacked).tok Scenario.irc).bal network = 700 := by
  decide +kernel

set_option maxRecDepth 100000 in
/-- C39: flexible tokens at the network. While its owner is an ordinary account it can destroy them; a converter cannot. -/
example : let held : World := Scenario.run [.call alice Scenario.flex 0 (.transfer network 50 (some .conversionResult))] ready
    let loose : World := Scenario.run [.call owner Scenario.conv 0 (.transferTokenOwnership bob), .call bob Scenario.flex 0 .acceptOwnerShip] held
    (held.own Scenario.flex).owner = some Scenario.conv ∧ (held.tok Scenario.flex).bal network = 50 ∧
    ((Scenario.run [.call owner network 0 (.withdrawTokens Scenario.flex bob 20)] held).tok Scenario.flex).bal network = 30 ∧
    (loose.own Scenario.flex).owner = some bob ∧
    ((Scenario.run [.call bob Scenario.flex 0 (.destroy network 20)] loose).tok Scenario.flex).bal network = 30 := by
  decide +kernel

set_option maxRecDepth 100000 in
/-- C41_conditions_tokens: the malicious token's request is accepted as long as the minimal return is positive and the beneficiary is
not the zero address; without either, or coming from anybody but the token itself, it is refused. -/
example : let w : World := (Tx.deploy alice Scenario.evil .foreign).apply thief 20 stocked
    let path : List Addr := [Scenario.evil, Scenario.evil, Scenario.irc]
    let ask (s : Addr) (m : Int) (g : Addr) := (exec thief 20 s network 0
      (.tokenFallback alice 1000 (.json [("path", .str (Scenario.pathText path)), ("minReturn", .int m), ("for", .str (Text.ofAddr g))])) w).isOk
    w.kind network = .net ∧ ask Scenario.evil 1 bob = true ∧ ask Scenario.evil 0 bob = false ∧ ask Scenario.evil 1 ZERO = false ∧
    ask alice 1 bob = false := by
  decide +kernel

end
end Verif
