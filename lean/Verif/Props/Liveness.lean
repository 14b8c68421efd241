import Verif.Props.Network
import Verif.Props.Formula
import Verif.Props.Wealth
import Verif.Props.Settings
/-!
C64: what is quoted can be had.
-/
set_option autoImplicit false
set_option linter.unusedSimpArgs false
namespace Verif

open Scenario (ready ready_reachable ready2 ready2_reachable alice bob owner network)

variable {orc : Oracle} {n : Nat} {w w' u u' : World} {s T t a b f N R : Addr} {v m r c : Int} {x : Val} {rest : List Addr} {d : Data}
  {p : List Char}

/-- Along the path nothing is closed: conversions are enabled at every converter, no token's transfers are disabled, and no
virtual balances are reckoned for the connectors used. -/
def Serving (w : World) : Addr → List Addr → Prop
  | a, ft :: b :: rest => (w.kind a = .flex → (w.flex a).transferable = true) ∧
    (∀ T, (w.own ft).owner = some T → (w.conv T).enabled = true ∧ (a = ft ∨ ((w.conv T).connectors a).isVirtual = false) ∧
      (b = ft ∨ ((w.conv T).connectors b).isVirtual = false)) ∧ Serving w b rest
  | a, _ => w.kind a = .flex → (w.flex a).transferable = true

theorem Serving.head : ∀ {a : Addr} {rest : List Addr}, Serving w a rest → w.kind a = .flex → (w.flex a).transferable = true
  | _, [], h => h
  | _, [_], h => h
  | _, _ :: _ :: _, h => h.1

theorem Serving.last : ∀ {a : Addr} {rest : List Addr}, EvenTail rest → Serving w a rest → w.kind (lastOf a rest) = .flex →
    (w.flex (lastOf a rest)).transferable = true
  | _, [], _, h => h
  | _, [_], he, _ => he.elim
  | _, _ :: b :: rest, he, h => Serving.last (a := b) (rest := rest) he h.2.2

/-- The range of what the formula answers. -/
theorem curve_range (hw : Wired w T t R N) (hv : 0 ≤ v) (h : w.curve T a b v 0 = .ok c) :
    0 ≤ c ∧ (b ≠ t → a = t → c ≤ w.reserve T b ∧ (c = w.reserve T b → v = (w.tok t).supply)) ∧
      (b ≠ t → a ≠ t → c < w.reserve T b) ∧ (v = 0 → c = 0) := by
  unfold World.curve at h
  rw [hw.token] at h
  by_cases hb : b = t
  · subst hb
    rw [if_pos rfl] at h
    refine ⟨Formula.C44_purchase hv h, fun e => absurd rfl e, fun e => absurd rfl e, ?_⟩
    rintro rfl
    by_cases hx : 0 < (w.tok b).supply ∧ 0 < w.reserve T a - 0 ∧ Formula.ValidWeight ((w.conv T).connectors a).weight
    · rw [Formula.C43_purchase_zero hx.1 hx.2.1 hx.2.2] at h; injection h with h; exact h.symm
    · rw [Formula.purchase_invalid hx] at h; cases h
  · have hne : ¬ (some t = some b) := by simpa using Ne.symm hb
    rw [if_neg hne] at h
    by_cases ha : a = t
    · subst ha
      rw [if_pos rfl] at h
      have := Formula.C44_sale hv h
      refine ⟨this.1, fun _ _ => this.2, fun _ e => absurd rfl e, ?_⟩
      rintro rfl
      by_cases hx : 0 < (w.tok a).supply ∧ 0 < w.reserve T b ∧ Formula.ValidWeight ((w.conv T).connectors b).weight ∧ 0 ≤ (w.tok a).supply
      · rw [Formula.C43_sale_zero hx.1 hx.2.1 hx.2.2.1] at h; injection h with h; exact h.symm
      · rw [Formula.sale_invalid hx] at h; cases h
    · have hne : ¬ (some t = some a) := by simpa using Ne.symm ha
      rw [if_neg hne] at h
      have := Formula.C44_cross hv h
      refine ⟨this.1, fun _ e => absurd e ha, fun _ _ => this.2, ?_⟩
      rintro rfl
      by_cases hx : 0 < w.reserve T a - 0 ∧ Formula.ValidWeight ((w.conv T).connectors a).weight ∧ 0 < w.reserve T b ∧
        Formula.ValidWeight ((w.conv T).connectors b).weight
      · by_cases hz : w.reserve T a - 0 < 2 ^ 129 ∨ ((w.conv T).connectors a).weight = ((w.conv T).connectors b).weight
        · rw [Formula.C43_cross_zero hx.1 hx.2.1 hx.2.2.1 hx.2.2.2 hz] at h; injection h with h; exact h.symm
        · rw [not_or] at hz
          rw [Formula.cross_valid hx.1 hx.2.1 hx.2.2.1 hx.2.2.2, if_neg hz.2] at h
          rw [if_pos (by omega)] at h; cases h
      · rw [Formula.cross_invalid hx] at h; cases h

/-- Nothing comes of nothing. -/
theorem quoted_zero (h : Reachable w) : ∀ {rest : List Addr} {a : Addr} {v r : Int}, Quoted w a rest v r → HonestPath w N a rest → 0 ≤ v →
    0 ≤ r ∧ (v = 0 → r = 0) := by
  intro rest a v r hq
  induction hq with
  | done => exact fun _ hv => ⟨hv, id⟩
  | @hop a ft b rest v T c r own curve tradable fee next ih =>
    intro hp hv
    obtain ⟨_, ⟨T', R, h2, hw⟩, hp'⟩ := hp
    rw [own] at h2; cases h2
    obtain ⟨h1, _, _, h2⟩ := curve_range hw hv curve
    have h3 := C24_range (T := T) h h1 (w.feeSteps T a b)
    obtain ⟨h4, h5⟩ := ih hp' h3.1
    refine ⟨h4, fun e => h5 ?_⟩
    have := h2 e
    omega

/-- Can the hop be paid? -/
theorem hop_payable (hr : Reachable w) (hw : Wired w T t R N) (hab : a ≠ b) (hv : 0 ≤ v) (h : w.curve T a b v 0 = .ok c)
    (hrc : r ≤ c) (hmove : w.kind b = .flex → (w.flex b).transferable = true)
    (hb : b = t ∨ ((w.conv T).connectors b).isVirtual = false)
    (hu : u.conv T = w.conv T) (hs : (u.tok t).supply = (w.tok t).supply) (hbal : ∀ z, (u.tok z).bal T = (w.tok z).bal T)
    (hk : u.kind = w.kind) (hf : u.flex = w.flex) : (u.pay a N T v).payable T t a b v r := by
  have hNT : N ≠ T := by rintro rfl; have h1 := hw.net; rw [hw.conv] at h1; cases h1
  unfold World.payable
  by_cases hbt : b = t
  · rw [if_pos hbt]; trivial
  · rw [if_neg hbt]
    have hnv := hb.resolve_left hbt
    have hrb : w.reserve T b = (w.tok b).bal T := by unfold World.reserve; rw [hnv]; rfl
    have hb' : ((u.pay a N T v).tok b).bal T = (w.tok b).bal T := by
      unfold World.pay; rw [setTok_tok, if_neg hab.symm]; exact hbal b
    have hrb' : (u.pay a N T v).reserve T b = (w.tok b).bal T := by
      unfold World.reserve; rw [pay_conv, hu, hnv, ← hb']; rfl
    obtain ⟨_, h1, h2, _⟩ := curve_range hw hv h
    rw [hrb] at h1 h2
    rw [hrb', hb', pay_conv, hu, hnv, pay_kind, pay_flex, hk, hf]
    by_cases hat : a = t
    · subst hat
      obtain ⟨h3, h4⟩ := h1 hbt rfl
      have hsup : ((u.pay a N T v).tok a).supply = (w.tok a).supply := by rw [← hs]; unfold World.pay; rw [setTok_tok, if_pos rfl]
      have hba : ((u.pay a N T v).tok a).bal T = (w.tok a).bal T + v := by
        unfold World.pay; rw [setTok_tok, if_pos rfl]; simp [moveBal, hNT.symm, hbal]
      have h0 := (C01_supply_is_sum hr a).2.1 T
      rw [if_pos rfl, hsup, hba]
      refine ⟨by omega, hmove, by simp, ?_, by omega⟩
      by_cases h5 : r < (w.tok b).bal T
      · exact .inl h5
      · exact .inr ⟨by omega, h4 (by omega)⟩
    · have h3 := h2 hbt hat
      rw [if_neg hat]
      refine ⟨by omega, hmove, by simp, ?_⟩
      simp only [Bool.false_eq_true, if_false]
      omega

/-- What is quoted can be routed. -/
theorem quoted_route (h : Reachable w) : ∀ {rest : List Addr} {a : Addr} {v r : Int} {u : World}, Quoted w a rest v r → 0 < v →
    0 < m → m ≤ r → HonestPath w N a rest → Serving w a rest → (stops rest).Nodup → HonestPath u N a rest → Agree w u (stops rest) →
    u.kind = w.kind → u.flex = w.flex → v ≤ (u.tok a).bal N → (∀ z, 0 ≤ (u.tok z).bal N) → ∃ u', Route N m u a rest v u' r := by
  intro rest a v r u hq
  induction hq generalizing u with
  | done => intros; exact ⟨_, .done⟩
  | @hop a ft b rest v T c r own curve tradable fee next ih =>
    intro hv hm hmr hp hser hnd hpu hag hk hf hbal hn0
    obtain ⟨hka, ⟨T1, R, h2, hw⟩, hp'⟩ := hp
    rw [own] at h2; cases h2
    obtain ⟨_, ⟨T2, R2, h2, hwu⟩, hpu'⟩ := hpu
    have ownu : (u.own ft).owner = some T := by rw [hag.1]; exact own
    rw [ownu] at h2; cases h2
    obtain ⟨hs1, hs2, hs3⟩ := hser
    obtain ⟨hen, hra, hrb⟩ := hs2 T own
    obtain ⟨hc1, hc2, hc3⟩ := hag.2 ft List.mem_cons_self T own
    have hab : a ≠ b := tradable.1
    have hNT : N ≠ T := by rintro rfl; have h1 := hw.net; rw [hw.conv] at h1; cases h1
    have hc0 := (curve_range hw hv.le curve).1
    obtain ⟨hr0, hr1⟩ := C24_range (T := T) h hc0 (w.feeSteps T a b)
    obtain ⟨_, hz⟩ := quoted_zero h next hp' hr0
    have hpos : 0 < w.afterFee T c (w.feeSteps T a b) := by
      rcases hr0.lt_or_eq with e | e
      · exact e
      · have := hz e.symm; omega
    have hcv : Converts (u.pay a N T v) T ft a b v (if rest = [] then m else 1) (w.afterFee T c (w.feeSteps T a b)) := by
      refine ⟨by rw [pay_conv, hc1]; exact hen, ownu, by split <;> omega, ?_, ⟨c, ?_, ?_, fee⟩, ?_, ?_⟩
      · unfold World.tradable; rw [pay_conv, hc1]; exact tradable
      · rw [curve_pay hwu hab (by rw [hc1]; exact hra), hag.curve List.mem_cons_self hw own]; exact curve
      · unfold World.afterFee World.feeSteps
        rw [pay_conv, hc1]
      · split
        · rename_i hnil; subst hnil; cases next; exact hmr
        · omega
      · exact hop_payable h hw hab hv.le curve fee hs3.head hrb hc1 hc2 hc3 hk hf
    have hnd' := List.nodup_cons.mp hnd
    have hbn : ∀ z, ((u.hopped T ft a b N v (w.afterFee T c (w.feeSteps T a b))).tok z).bal N =
        (u.tok z).bal N - (if z = a then v else 0) + (if z = b then w.afterFee T c (w.feeSteps T a b) else 0) :=
      fun z => hopped_bal_net _ _ _ _ _ _ hNT z
    obtain ⟨u', hu'⟩ := ih (u := u.hopped T ft a b N v (w.afterFee T c (w.feeSteps T a b))) hpos hm hmr hp' hs3 hnd'.2 hpu'.hopped
      ⟨by rw [hopped_own]; exact hag.1, by
        intro ft2 hft2 T2 hown2
        obtain ⟨T3, R3, ho3, hw3⟩ := hp'.stop ft2 hft2
        rw [hown2] at ho3; cases ho3
        have hne : ft2 ≠ ft := by rintro rfl; exact hnd'.1 hft2
        have hTne : T2 ≠ T := by
          rintro rfl
          have h1 := hw3.token; rw [hw.token] at h1; cases h1; exact hne rfl
        obtain ⟨g1, g2, g3⟩ := hag.2 ft2 (List.mem_cons_of_mem _ hft2) T2 hown2
        refine ⟨by rw [hopped_conv_other _ _ _ _ _ _ _ hTne]; exact g1, by rw [hopped_supply _ _ _ _ _ _ hne]; exact g2, ?_⟩
        intro z; rw [hopped_bal _ _ _ _ _ _ hw3.ne.symm hTne]; exact g3 z⟩
      (by rw [hopped_kind]; exact hk) (by rw [hopped_flex]; exact hf)
      (by rw [hbn]; have := hn0 b; simp [hab.symm]; omega)
      (fun z => by
        rw [hbn]; have := hn0 z
        by_cases hz : z = a
        · subst hz; simp [hab]; omega
        · simp only [hz, if_false]; split <;> omega)
    exact ⟨u', .hop ownu hv hbal (by rw [hk, hf]; exact hs1) hcv hu'⟩

/-- The last converter has what is quoted. -/
theorem quoted_held (h : Reachable w) : ∀ {rest : List Addr} {a : Addr} {v r : Int}, Quoted w a rest v r → 0 ≤ v → HonestPath w N a rest →
    Serving w a rest → rest ≠ [] → w.kind (lastOf a rest) ≠ .flex → ∃ T, r ≤ (w.tok (lastOf a rest)).bal T := by
  intro rest a v r hq
  induction hq with
  | done => intro _ _ _ h; exact absurd rfl h
  | @hop a ft b rest v T c r own curve tradable fee next ih =>
    intro hv hp hser _ hk
    obtain ⟨hka, ⟨T1, R, h2, hw⟩, hp'⟩ := hp
    rw [own] at h2; cases h2
    obtain ⟨hc0, h1, h2, _⟩ := curve_range hw hv curve
    by_cases hnil : rest = []
    · subst hnil
      cases next
      have e : lastOf a [ft, b] = b := rfl
      rw [e] at hk ⊢
      have hbt : b ≠ ft := by rintro rfl; exact hk hw.flex
      have hnv := (hser.2.1 T own).2.2.resolve_left hbt
      have hrb : w.reserve T b = (w.tok b).bal T := by unfold World.reserve; rw [hnv]; rfl
      refine ⟨T, le_trans fee ?_⟩
      by_cases hat : a = ft
      · have := (h1 hbt hat).1; omega
      · have := h2 hbt hat; omega
    · exact ih ((C24_range (T := T) h hc0 _).1) hp' hser.2.2 hnil hk

/-- A serving path has no virtual balances where C40 asks for none. -/
theorem Serving.real : ∀ {a : Addr} {rest : List Addr}, Serving w a rest → RealPath w a rest
  | _, [], _ => trivial
  | _, [_], _ => trivial
  | _, _ :: _ :: _, h => ⟨fun T hT => (h.2.1 T hT).2.1, Serving.real h.2.2⟩

/-- What is quoted can be delivered. -/
theorem quoted_deliverable (h : Reachable w) (hq : Quoted w a rest v r) (hv : 0 ≤ v) (hp : HonestPath w N a rest) (hser : Serving w a rest)
    (hl : LegalPath (a :: rest)) (hreg : w.net N (lastOf a rest) = true → w.kind (lastOf a rest) = .icx)
    (hk : u.kind = w.kind) (hf : u.flex = w.flex) (hn : u.net = w.net) (hc : w.kind (lastOf a rest) = .icx →
      w.coin (lastOf a rest) ≤ u.coin (lastOf a rest)) : u.deliverable N (lastOf a rest) r := by
  have he := LegalPath.stops hl
  unfold World.deliverable
  rw [hn, hk, hf]
  split
  · rename_i hz
    have hz := hreg hz
    refine ⟨hz, le_trans ?_ (hc hz)⟩
    obtain ⟨T, hT⟩ := quoted_held h hq hv hp hser he.2.1 (by rw [hz]; decide)
    rw [C09_backed h hz]
    obtain ⟨h3, h2, _⟩ := C01_supply_is_sum h (lastOf a rest)
    refine le_trans hT ?_
    rw [h3]
    exact sum_ge _ h2 T
  · exact hser.last he.1

/-- C64. What is quoted can be had, for tokens: if `getExpectedReturnByPath` answers `q` for `v` of the first token, then, in the same
ledger, everybody who has these `v` tokens gets exactly `q` for them by sending them to the network, for every minimal return
up to `q` - provided conversions are enabled and transfers not disabled along the path, and no virtual balances are reckoned.
(An ICX token registered at the network, if the path ends there, must be one.) No other obstacle is left: the reserves, the
network's stock and the coin behind the ICX token always suffice. -/
theorem C64_tokens (h : Reachable w) (hk : w.kind N = .net) (hp : HonestPath w N a rest) (hser : Serving w a rest)
    (hreg : w.net N (lastOf a rest) = true → w.kind (lastOf a rest) = .icx)
    {orc' : Oracle} {n' : Nat} {s' : Addr} {cv q : Int} {w1 : World} (ht : PathText p (a :: rest))
    (hq : exec orc' n' s' N cv (.getExpectedReturnByPath p v) w = .ok (.int q, w1))
    (hd : Requests d s (a :: rest) m f) (hf : f.isContract = false) (hf0 : f ≠ ZERO) (hs : w.kind s = .none)
    (hm : 0 < m) (hmq : m ≤ q) (hv : v ≤ (w.tok a).bal s) :
    ∃ x w', exec orc (n + 6) s a 0 (.transfer N v (some d)) w = .ok (x, w') ∧ Settled w w' N s a (lastOf a rest) f v q false := by
  have hsN : s ≠ N := by rintro rfl; rw [hs] at hk; cases hk
  have hsc : w.kind s ≠ .conv := by rw [hs]; decide
  obtain ⟨_, h2, hl, a', rest', e, h4⟩ := quote_path hk hq ht
  injection e with e1 e2; subst e1; subst e2
  obtain ⟨r', h5, h6, _⟩ := h4 hp
  injection h5 with h5; subst h5
  have he := LegalPath.stops hl
  have hp' : HonestPath (w.pay a s N v) N a rest :=
    HonestPath.of (w := w) (w' := w.pay a s N v) rfl rfl (fun _ => ⟨rfl, rfl⟩) rfl h.basic.coin_nonneg hp
  have hn0 := fun z => (C01_supply_is_sum h z).2.1 N
  have hbal : ∀ z, ((w.pay a s N v).tok z).bal N = (w.tok z).bal N + if z = a then v else 0 := by
    intro z
    unfold World.pay; rw [setTok_tok]; split
    · subst z; simp [moveBal, hsN.symm]
    · simp
  obtain ⟨u', hr⟩ := quoted_route h h6 h2 hm hmq hp hser he.2.2 hp' (agree_pay hp hsc) rfl rfl
    (by rw [hbal, if_pos rfl]; have := hn0 a; omega) (fun z => by rw [hbal]; have := hn0 z; split <;> omega)
  obtain ⟨x, w', hx⟩ := (C35_convert_iff (orc := orc) (n := n) (v := v) h hk hp hd hf hsN).mpr ⟨hser.head, hv, hm, hf0, hl, u', q, hr,
    quoted_deliverable h h6 h2.le hp hser hl hreg hr.kind hr.flex hr.net (fun _ => by rw [hr.coin]; exact le_refl _)⟩
  exact ⟨x, w', hx, (C40_tokens h hk hp hser.real ht hq hd hf hsN hsc hx).2⟩

/-- C64. The same for coin, with `convert` and `convertFor`. -/
theorem C64_coin (h : Reachable w) (hk : w.kind N = .net) (hp : HonestPath w N a rest) (hser : Serving w a rest)
    (hna : w.net N a = true) (hka : w.kind a = .icx)
    (hreg : w.net N (lastOf a rest) = true → w.kind (lastOf a rest) = .icx)
    {orc' : Oracle} {n' : Nat} {s' : Addr} {cv q : Int} {w1 : World} (ht : PathText p (a :: rest))
    (hq : exec orc' n' s' N cv (.getExpectedReturnByPath p v) w = .ok (.int q, w1))
    {c : Call} {p' : List Char} (ht' : PathText p' (a :: rest)) (hc : c = .convertFor p' m f ∨ (c = .convert p' m ∧ f = s))
    (hf : f.isContract = false) (hf0 : f ≠ ZERO) (hs : w.kind s = .none)
    (hm : 0 < m) (hmq : m ≤ q) (hv : v ≤ w.coin s) :
    ∃ w', exec orc (n + 5) s N v c w = .ok (.int q, w') ∧ Settled w w' N s a (lastOf a rest) f v q true := by
  have hsN : s ≠ N := by rintro rfl; rw [hs] at hk; cases hk
  obtain ⟨_, h2, hl, a', rest', e, h4⟩ := quote_path hk hq ht
  injection e with e1 e2; subst e1; subst e2
  obtain ⟨r', h5, h6, _⟩ := h4 hp
  injection h5 with h5; subst h5
  have he := LegalPath.stops hl
  have hcoin : ∀ y, 0 ≤ (w.staked a N s v).coin y := by
    unfold World.staked
    rw [mint_coin]
    refine moveCoin_nonneg (moveCoin_nonneg h.basic.coin_nonneg (by omega) hv) (by omega) ?_
    rw [moveCoin_coin, if_neg hsN.symm, if_pos rfl]
    have := h.basic.coin_nonneg N; omega
  have hp' : HonestPath (w.staked a N s v) N a rest :=
    HonestPath.of (w := w) (w' := w.staked a N s v) rfl rfl (fun _ => ⟨rfl, rfl⟩) rfl hcoin hp
  have hn0 := fun z => (C01_supply_is_sum h z).2.1 N
  have hbal : ∀ z, ((w.staked a N s v).tok z).bal N = (w.tok z).bal N + if z = a then v else 0 := by
    intro z
    unfold World.staked; rw [mint_bal]; simp [World.moveCoin]
  obtain ⟨u', hr⟩ := quoted_route h h6 h2 hm hmq hp hser he.2.2 hp' (agree_staked hp hka) rfl rfl
    (by rw [hbal, if_pos rfl]; have := hn0 a; omega) (fun z => by rw [hbal]; have := hn0 z; split <;> omega)
  obtain ⟨x, w', hx⟩ := (C35_convert_coin_iff (orc := orc) (n := n) (v := v) h hk hp ht' hc hf hsN).mpr ⟨hm, hf0, hl, hna, hka, hv, u', q, hr,
    quoted_deliverable h h6 h2.le hp hser hl hreg hr.kind hr.flex hr.net (fun hz => by
      rw [hr.coin]
      have h1 : lastOf a rest ≠ s := by rintro e; rw [e, hs] at hz; cases hz
      have h2 : lastOf a rest ≠ N := by rintro e; rw [e, hk] at hz; cases hz
      unfold World.staked
      rw [mint_coin, moveCoin_coin, moveCoin_coin, if_neg h1, if_neg h2]
      split <;> simp <;> omega)⟩
  obtain ⟨e, _, hset⟩ := C40_coin h hk hp hser.real ht hq ht' hc hf hsN hx
  subst e
  exact ⟨w', hx, hset⟩

/-! ### As time goes by -/

/-- Every hop of the path leads through a converter that is open for business (C59), with conversions enabled, from one of its tokens
to another, and none of the tokens' transfers are disabled. -/
def OpenPath (w : World) (N : Addr) : Addr → List Addr → Prop
  | a, ft :: b :: rest => (∃ T R, Trading w T ft R N (w.conv T).connectorTokens ∧ (w.conv T).enabled = true ∧
      a ∈ ft :: (w.conv T).connectorTokens ∧ b ∈ ft :: (w.conv T).connectorTokens) ∧
      (w.kind a = .flex → (w.flex a).transferable = true) ∧ OpenPath w N b rest
  | a, _ => (w.kind a).isToken ∧ (w.kind a = .flex → (w.flex a).transferable = true)

/-- The calls by which people in office can obstruct a path: meddling with a converter (C59), its owner or manager disabling
conversions, a token's owner disabling transfers. -/
def Obstructs (w : World) : Addr → List Addr → Frame → Prop
  | a, ft :: b :: rest, f => (∃ T R, (w.own ft).owner = some T ∧ (w.conv T).registry = some R ∧
      (Meddles T ft R (w.conv T).connectorTokens f ∨ (f.to = T ∧ f.byOwnerOrManager ∧ f.call = .disableConversions true))) ∨
      (f.to = a ∧ f.owner = some f.sender ∧ f.call = .disableTransfer true) ∨ Obstructs w b rest f
  | a, _, f => f.to = a ∧ f.owner = some f.sender ∧ f.call = .disableTransfer true

theorem later_frames (h : Later w w') : w.frames <:+ w'.frames := by
  induction h with
  | refl => exact List.suffix_refl _
  | step orc fuel tx _ ih => exact ih.trans (tx_steps orc fuel tx _).frames

theorem called_step {tx : Tx} {fr : Frame} (h : Later w w') (hc : Called w' (tx.apply orc n w') fr) : Called w (tx.apply orc n w') fr := by
  obtain ⟨new, h1, h2⟩ := hc
  obtain ⟨old, h3⟩ := later_frames h
  exact ⟨new ++ old, by rw [h1, ← h3, List.append_assoc], List.mem_append_left _ h2⟩

theorem called_earlier {tx : Tx} {fr : Frame} (hc : Called w w' fr) : Called w (tx.apply orc n w') fr := by
  obtain ⟨new, h1, h2⟩ := hc
  obtain ⟨more, h3⟩ := (tx_steps orc n tx w').frames
  exact ⟨more ++ new, by rw [← h3, h1, List.append_assoc], List.mem_append_right _ h2⟩

/-- Transfers stay enabled unless the owner disables them. -/
theorem movable_later (h : Later w w') (hk : (w.kind a).isToken) (hm : w.kind a = .flex → (w.flex a).transferable = true)
    (hno : ∀ fr, Called w w' fr → ¬ (fr.to = a ∧ fr.owner = some fr.sender ∧ fr.call = .disableTransfer true)) :
    w'.kind a = .flex → (w'.flex a).transferable = true := by
  induction h with
  | refl => exact hm
  | @step u orc fuel tx hl ih =>
    intro hf
    have hne : w.kind a ≠ .none := by intro e; rw [e] at hk; exact absurd hk (by decide)
    have hu : u.kind a = .flex := by rw [hl.kind hne, ← (Later.step orc fuel tx hl).kind hne]; exact hf
    have ht := ih (fun fr hc => hno fr (called_earlier hc)) hu
    by_contra hc
    have hc : ((tx.apply orc fuel u).flex a).transferable = false := by simpa using hc
    obtain ⟨fr, b, h1, h2, h3, h4, h5⟩ := C08_only_owner_toggles (orc := orc) (fuel := fuel) (tx := tx) hu (by rw [ht, hc]; decide)
    have hb : b = true := by rw [hc] at h5; revert h5; cases b <;> decide
    subst hb
    exact hno fr (called_step hl h1) ⟨h2, h4, h3⟩

/-- Conversions stay enabled unless owner or manager disable them. -/
theorem enabled_later (h : Later w w') (hk : w.kind T = .conv) (hm : (w.conv T).enabled = true)
    (hno : ∀ fr, Called w w' fr → ¬ (fr.to = T ∧ fr.byOwnerOrManager ∧ fr.call = .disableConversions true)) :
    (w'.conv T).enabled = true := by
  induction h with
  | refl => exact hm
  | @step u orc fuel tx hl ih =>
    have hu : u.kind T = .conv := by rw [hl.kind (by rw [hk]; decide), hk]
    have ht := ih (fun fr hc => hno fr (called_earlier hc))
    by_contra hc
    have hc : ((tx.apply orc fuel u).conv T).enabled = false := by simpa using hc
    obtain ⟨fr, h1, h2, h3, h4⟩ := C14_enabled (orc := orc) (fuel := fuel) (tx := tx) hu (by rw [ht, hc]; decide)
    rw [hc] at h3
    exact hno fr (called_step hl h1) ⟨h2, h4, h3⟩

theorem Trading.token_of (ht : Trading w T t R N (w.conv T).connectorTokens) (ha : a ∈ t :: (w.conv T).connectorTokens) :
    (w.kind a).isToken := by
  rcases List.mem_cons.mp ha with rfl | ha
  · rw [ht.wired.flex]; decide
  · exact ht.honest a ha

theorem isToken_ne {k : Kind} (h : k.isToken) : k ≠ .none := by rintro rfl; exact absurd h (by decide)

/-- C64. A path that is open stays open as long as nobody in office obstructs it, whatever else happens. -/
theorem C64_stays_open (hr : Reachable w) (h : Later w w') : ∀ {a : Addr} {rest : List Addr}, OpenPath w N a rest →
    (∀ fr, Called w w' fr → ¬ Obstructs w a rest fr) → OpenPath w' N a rest
  | a, [], hp, hno => ⟨by rw [h.kind (isToken_ne hp.1)]; exact hp.1, movable_later h hp.1 hp.2 hno⟩
  | a, [_], hp, hno => ⟨by rw [h.kind (isToken_ne hp.1)]; exact hp.1, movable_later h hp.1 hp.2 hno⟩
  | a, ft :: b :: rest, hp, hno => by
    obtain ⟨⟨T, R, h1, h2, h3, h4⟩, h5, h6⟩ := hp
    have hreg := h1.wired.registry
    have key := C59_stays_open hr h1 h (fun fr hc hm => hno fr hc (.inl ⟨T, R, h1.active, hreg, .inl hm⟩))
    have hct := key.1.connectors
    refine ⟨⟨T, R, by rw [hct]; exact key.1, ?_, by rw [hct]; exact h3, by rw [hct]; exact h4⟩, ?_, ?_⟩
    · exact enabled_later h h1.wired.conv h2 (fun fr hc hm => hno fr hc (.inl ⟨T, R, h1.active, hreg, .inr hm⟩))
    · exact movable_later h (h1.token_of h3) h5 (fun fr hc hm => hno fr hc (.inr (.inl hm)))
    · exact C64_stays_open hr h h6 (fun fr hc hm => hno fr hc (.inr (.inr hm)))

/-- An open path is honest and serves. -/
theorem OpenPath.serves : ∀ {a : Addr} {rest : List Addr}, OpenPath w N a rest → HonestPath w N a rest ∧ Serving w a rest
  | _, [], hp => hp
  | _, [_], hp => hp
  | a, ft :: b :: rest, hp => by
    obtain ⟨⟨T, R, h1, h2, h3, h4⟩, h5, h6⟩ := hp
    obtain ⟨h7, h8⟩ := OpenPath.serves h6
    refine ⟨⟨h1.token_of h3, ⟨T, R, h1.active, h1.wired⟩, h7⟩, h5, ?_, h8⟩
    intro T' hT'
    rw [h1.active] at hT'; cases hT'
    have : ∀ z, z ∈ ft :: (w.conv T).connectorTokens → z = ft ∨ ((w.conv T).connectors z).isVirtual = false := by
      intro z hz
      rcases List.mem_cons.mp hz with e | hz
      · exact .inl e
      · exact .inr (h1.real z hz)
    exact ⟨h2, this _ h3, this _ h4⟩

/-- C64. Nobody but people in office can stand in the way of conversions: along a path that was open, as long as nobody in office
obstructs it, and whatever else has been done by whomever and with whatever third-party contracts, everybody still gets what he is
quoted. -/
theorem C64_unstoppable (hr : Reachable w) (h : Later w w') (hk : w.kind N = .net) (hop : OpenPath w N a rest)
    (hno : ∀ fr, Called w w' fr → ¬ Obstructs w a rest fr)
    (hreg : w'.net N (lastOf a rest) = true → w'.kind (lastOf a rest) = .icx)
    {orc' : Oracle} {n' : Nat} {s' : Addr} {cv q : Int} {w1 : World} (ht : PathText p (a :: rest))
    (hq : exec orc' n' s' N cv (.getExpectedReturnByPath p v) w' = .ok (.int q, w1))
    (hf : f.isContract = false) (hf0 : f ≠ ZERO) (hs : w'.kind s = .none) (hm : 0 < m) (hmq : m ≤ q) :
    (∀ d, Requests d s (a :: rest) m f → v ≤ (w'.tok a).bal s →
      ∃ x w2, exec orc (n + 6) s a 0 (.transfer N v (some d)) w' = .ok (x, w2) ∧ Settled w' w2 N s a (lastOf a rest) f v q false) ∧
    (w'.net N a = true → w'.kind a = .icx → v ≤ w'.coin s →
      ∃ w2, exec orc (n + 5) s N v (.convertFor p m f) w' = .ok (.int q, w2) ∧ Settled w' w2 N s a (lastOf a rest) f v q true) := by
  obtain ⟨h1, h2⟩ := (C64_stays_open hr h hop hno).serves
  have hk' : w'.kind N = .net := by rw [h.kind (by rw [hk]; decide), hk]
  exact ⟨fun d hd hv => C64_tokens (hr.later h) hk' h1 h2 hreg ht hq hd hf hf0 hs hm hmq hv,
    fun hn hka hv => C64_coin (hr.later h) hk' h1 h2 hn hka hreg ht hq ht (.inl rfl) hf hf0 hs hm hmq hv⟩

set_option maxRecDepth 100000 in
/-- Both example paths are served. -/
theorem ready2_serving : Serving ready2 Scenario.icxt uphill.tail ∧ Serving ready2 Scenario.flex2 downhill.tail := by
  have h1 := ready2_facts.2.2.2.2.1
  have h2 := ready2_facts.2.2.2.2.2
  have h3 : (ready2.conv Scenario.conv).enabled = true ∧ (ready2.conv Scenario.conv2).enabled = true ∧
      ((ready2.conv Scenario.conv).connectors Scenario.icxt).isVirtual = false ∧
      ((ready2.conv Scenario.conv2).connectors Scenario.flex).isVirtual = false ∧
      (ready2.kind Scenario.icxt = .flex → (ready2.flex Scenario.icxt).transferable = true) ∧
      (ready2.kind Scenario.flex = .flex → (ready2.flex Scenario.flex).transferable = true) ∧
      (ready2.kind Scenario.flex2 = .flex → (ready2.flex Scenario.flex2).transferable = true) := by decide +kernel
  obtain ⟨e1, e2, r1, r2, t1, t2, t3⟩ := h3
  refine ⟨⟨t1, fun T hT => ?_, t2, fun T hT => ?_, t3⟩, ⟨t3, fun T hT => ?_, t2, fun T hT => ?_, t1⟩⟩
  · rw [h1] at hT; cases hT; exact ⟨e1, .inr r1, .inl rfl⟩
  · rw [h2] at hT; cases hT; exact ⟨e2, .inr r2, .inl rfl⟩
  · rw [h2] at hT; cases hT; exact ⟨e2, .inl rfl, .inr r2⟩
  · rw [h1] at hT; cases hT; exact ⟨e1, .inl rfl, .inr r1⟩

theorem answered {y : Val} {c : Call} (h : Scenario.answer s t c w = .ok y) : ∃ w1, exec Scenario.orc 20 s t 0 c w = .ok (y, w1) := by
  unfold Scenario.answer at h
  cases hx : exec Scenario.orc 20 s t 0 c w with
  | error e => rw [hx] at h; cases h
  | ok p => rw [hx] at h; injection h with h; exact ⟨p.2, by rw [← h]⟩

set_option maxRecDepth 100000 in
/-- C64: 147 and 1942 are quoted; alice gets them for coin and for tokens, asking for all of it. -/
example : (∃ w', exec Scenario.orc 10 alice network 300 (.convert (Scenario.pathText uphill) 147) ready2 = .ok (.int 147, w') ∧
      Settled ready2 w' network alice Scenario.icxt Scenario.flex2 alice 300 147 true) ∧
    ∃ x w', exec Scenario.orc 10 alice Scenario.flex2 0 (.transfer network 1000 (some (Scenario.request downhill 1942))) ready2 = .ok (x, w') ∧
      Settled ready2 w' network alice Scenario.flex2 Scenario.icxt alice 1000 1942 false := by
  have q1 : ∃ w1, exec Scenario.orc 20 alice network 0 (.getExpectedReturnByPath (Scenario.pathText uphill) 300) ready2 = .ok (.int 147, w1) :=
    answered (by decide +kernel)
  have q2 : ∃ w1, exec Scenario.orc 20 alice network 0 (.getExpectedReturnByPath (Scenario.pathText downhill) 1000) ready2 = .ok (.int 1942, w1) :=
    answered (by decide +kernel)
  obtain ⟨w1, q1⟩ := q1
  obtain ⟨w2, q2⟩ := q2
  exact ⟨C64_coin (n := 5) ready2_reachable ready2_facts.1 uphill_honest ready2_serving.1 (by decide +kernel) (by decide +kernel)
      (fun h => absurd h (by decide +kernel)) (pathText_text (by nofun)) q1 (pathText_text (by nofun)) (.inr ⟨rfl, rfl⟩)
      (by decide) (by decide) (by decide +kernel) (by decide) (by decide) (by decide +kernel),
    C64_tokens (n := 4) ready2_reachable ready2_facts.1 downhill_honest ready2_serving.2 (fun _ => by decide +kernel)
      (pathText_text (by nofun)) q2 (request_requests (by nofun)) (by decide) (by decide) (by decide +kernel) (by decide) (by decide)
      (by decide +kernel)⟩

set_option maxRecDepth 100000 in
theorem ready_open : OpenPath ready network Scenario.irc [Scenario.flex, Scenario.icxt] := by
  have h : (ready.conv Scenario.conv).connectorTokens = [Scenario.irc, Scenario.icxt] ∧ (ready.conv Scenario.conv).enabled = true ∧
    (ready.kind Scenario.irc = .flex → (ready.flex Scenario.irc).transferable = true) ∧ (ready.kind Scenario.icxt).isToken ∧
    (ready.kind Scenario.icxt = .flex → (ready.flex Scenario.icxt).transferable = true) := by decide +kernel
  exact ⟨⟨Scenario.conv, Scenario.registry, by rw [h.1]; exact ready_trading, h.2.1, by rw [h.1]; decide, by rw [h.1]; decide⟩, h.2.2.1,
    h.2.2.2⟩

/-- Calls that do not obstruct. -/
def Frame.harmless (f : Frame) : Bool := f.plain && match f.call with
  | .disableConversions _ | .disableTransfer _ => false
  | _ => true

set_option maxRecDepth 100000 in
/-- C64: after a history of trades the path is still open, and what is quoted can be had. -/
example : OpenPath Scenario.busy network Scenario.irc [Scenario.flex, Scenario.icxt] := by
  refine C64_stays_open ready_reachable busy_later ready_open ?_
  have key : (Scenario.busy.frames.take (Scenario.busy.frames.length - ready.frames.length)).all Frame.harmless = true := by decide +kernel
  have h1 : (ready.own Scenario.flex).owner = some Scenario.conv ∧ (ready.conv Scenario.conv).registry = some Scenario.registry ∧
    (ready.conv Scenario.conv).connectorTokens = [Scenario.irc, Scenario.icxt] := by decide +kernel
  intro f hc ho
  have hm := busy_plain f hc
  obtain ⟨new, h2, h3⟩ := hc
  have hmem : f ∈ Scenario.busy.frames.take (Scenario.busy.frames.length - ready.frames.length) := by
    rw [h2, List.length_append, Nat.add_sub_cancel, List.take_left]; exact h3
  have := List.all_eq_true.1 key f hmem
  unfold Frame.harmless at this
  rw [Bool.and_eq_true] at this
  rcases ho with ⟨T, R, h4, h5, h6 | ⟨_, _, h6⟩⟩ | ⟨_, _, h6⟩ | ⟨_, _, h6⟩
  · rw [h1.1] at h4; cases h4
    rw [h1.2.1] at h5; cases h5
    rw [h1.2.2] at h6
    exact hm h6
  all_goals (rw [h6] at this; exact absurd this.2 (by decide))

end Verif
