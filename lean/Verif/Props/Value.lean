import Verif.Spec.Value
import Verif.Props.Trip
import Verif.Props.Price
/-!
# Prices along a path (C83)

What a conversion along a path brings is bounded by the amount times the prices of the pools on it. So where the pools agree on the prices, nobody gains by converting around.
-/
set_option autoImplicit false
namespace Verif
open Formula

section
variable {w w' : World} {N t s a b T R z : Addr} {v r c : Int} {rest : List Addr}

theorem SizedPath.real : ∀ {rest : List Addr} {a : Addr}, SizedPath w w' a rest → RealHops w a rest
  | [], _, _ => trivial
  | [_], _, _ => trivial
  | _ :: _ :: rest, _, h => ⟨fun T hT => (h.1 T hT).1, SizedPath.real (rest := rest) h.2⟩

theorem afterFee_le_real {x : Int} {k : Nat} : (w.afterFee T x k : ℝ) ≤ x * (1 - ((w.conv T).fee : ℝ) / 1000000) ^ k := by
  unfold World.afterFee
  have h1 : x * (1000000 - (w.conv T).fee) ^ k / 1000000 ^ k * 1000000 ^ k ≤ x * (1000000 - (w.conv T).fee) ^ k := Int.ediv_mul_le _ (by positivity)
  have h2 : ((x * (1000000 - (w.conv T).fee) ^ k / 1000000 ^ k : Int) : ℝ) * 1000000 ^ k ≤ x * (1000000 - ((w.conv T).fee : ℝ)) ^ k := by exact_mod_cast h1
  have h3 : (1 - ((w.conv T).fee : ℝ) / 1000000) ^ k = (1000000 - ((w.conv T).fee : ℝ)) ^ k / 1000000 ^ k := by
    rw [← div_pow]; congr 1; ring
  rw [h3, mul_div_assoc', le_div_iff₀ (by positivity)]
  exact h2

/-- The formula gives less than the rate of the pool, but for a unit. -/
theorem curve_rate (hw : Wired w T t R N) (hab : a ≠ b) (hv : 0 ≤ v) (hreal : ∀ z, z = a ∨ z = b → z ≠ t → ((w.conv T).connectors z).isVirtual = false)
    (hc : w.curve T a b v 0 = .ok c) (hb : b ≠ t → (w.tok b).bal T ≤ 2 ^ 104) (hs : b = t → (w.tok t).supply * ((w.tok a).bal T + v) ≤ 2 ^ 124 * (w.tok a).bal T) :
    (c : ℝ) ≤ v * (w.share T t b / w.share T t a) + 1 := by
  unfold World.curve at hc
  rw [hw.token] at hc
  by_cases hbt : b = t
  · subst hbt
    rw [if_pos rfl, reserve_real (hreal a (.inl rfl) hab), Int.sub_zero] at hc
    obtain ⟨hS, hB, hW⟩ := purchase_input hc
    have hW' := weight_real hW
    have hB' : (0 : ℝ) < (w.tok a).bal T := by exact_mod_cast hB
    have hS' : (0 : ℝ) < (w.tok b).supply := by exact_mod_cast hS
    have hW1 : (0 : ℝ) < ((w.conv T).connectors a).weight := by linarith [hW'.1]
    have hv' : (0 : ℝ) ≤ v := by exact_mod_cast hv
    have h1 := C72_purchase_spot hv hc ((purchase_bound hS'.le hB' hv' hW'.2).trans (by
      have : ((w.tok b).supply : ℝ) * ((w.tok a).bal T + v) ≤ 2 ^ 124 * (w.tok a).bal T := by exact_mod_cast hs rfl
      rw [show (1 : ℝ) + v / (w.tok a).bal T = ((w.tok a).bal T + v) / (w.tok a).bal T by field_simp, mul_div_assoc', div_le_iff₀ hB']; exact this))
    have h2 : ((c : ℝ) - 1) * (1000000 * (w.tok a).bal T) < v * ((w.tok b).supply * ((w.conv T).connectors a).weight) := by exact_mod_cast h1
    unfold World.share
    rw [if_pos rfl, if_neg hab, div_div_eq_mul_div, mul_div_assoc', ← sub_le_iff_le_add, le_div_iff₀ hB']
    have e : (v : ℝ) * ((w.tok b).supply / 1000000 * ((w.conv T).connectors a).weight) = v * ((w.tok b).supply * ((w.conv T).connectors a).weight) / 1000000 := by ring
    rw [e, le_div_iff₀ (by norm_num)]
    linarith
  · rw [if_neg (by simpa using fun e => hbt e.symm)] at hc
    by_cases hat : a = t
    · subst hat
      rw [if_pos rfl, reserve_real (hreal b (.inr rfl) hbt)] at hc
      obtain ⟨hS, hB, hW, -⟩ := sale_input hc
      have hW' := weight_real hW
      have hB' : (0 : ℝ) < (w.tok b).bal T := by exact_mod_cast hB
      have hS' : (0 : ℝ) < (w.tok a).supply := by exact_mod_cast hS
      have hW1 : (0 : ℝ) < ((w.conv T).connectors b).weight := by linarith [hW'.1]
      have h1 := C72_sale_spot hv hc (hb hbt)
      have h2 : ((c : ℝ) - 1) * ((w.tok a).supply * ((w.conv T).connectors b).weight) < v * (1000000 * (w.tok b).bal T) := by exact_mod_cast h1
      unfold World.share
      rw [if_neg hbt, if_pos rfl, div_div_div_eq, mul_div_assoc', ← sub_le_iff_le_add, le_div_iff₀ (by positivity)]
      linarith
    · rw [if_neg (by simpa using fun e => hat e.symm), reserve_real (hreal a (.inl rfl) hat), reserve_real (hreal b (.inr rfl) hbt), Int.sub_zero] at hc
      obtain ⟨hA, hWa, hB, hWb⟩ := cross_input hc
      have hWa' := weight_real hWa
      have hWb' := weight_real hWb
      have hA' : (0 : ℝ) < (w.tok a).bal T := by exact_mod_cast hA
      have hB' : (0 : ℝ) < (w.tok b).bal T := by exact_mod_cast hB
      have hW1 : (0 : ℝ) < ((w.conv T).connectors a).weight := by linarith [hWa'.1]
      have hW2 : (0 : ℝ) < ((w.conv T).connectors b).weight := by linarith [hWb'.1]
      have h1 := C72_cross_spot hv hc (hb hbt)
      have h2 : ((c : ℝ) - 1) * ((w.tok a).bal T * ((w.conv T).connectors b).weight) < v * ((w.tok b).bal T * ((w.conv T).connectors a).weight) := by exact_mod_cast h1
      unfold World.share
      rw [if_neg hbt, if_neg hat, div_div_div_eq, mul_div_assoc', ← sub_le_iff_le_add, le_div_iff₀ (by positivity)]
      linarith


theorem share_nonneg (h : Reachable w) : 0 ≤ w.share T t z := by
  unfold World.share
  split
  · have : (0 : ℝ) ≤ (w.tok t).supply := by exact_mod_cast (C01_supply_is_sum h t).2.2
    positivity
  · have h1 : (0 : ℝ) ≤ (w.tok z).bal T := by exact_mod_cast (C01_supply_is_sum h z).2.1 T
    have h2 : (0 : ℝ) ≤ ((w.conv T).connectors z).weight := by
      have hi := h.convInv T
      by_cases hz : ((w.conv T).connectors z).isSet = true
      · exact_mod_cast (hi.weight z hz).1.le
      · rw [hi.blank z (by simpa using hz)]; simp
    positivity

theorem rate_nonneg (h : Reachable w) : 0 ≤ w.rate t a b := by
  unfold World.rate
  split
  · norm_num
  · exact div_nonneg (share_nonneg h) (share_nonneg h)

theorem kept_range (h : Reachable w) : 0 ≤ w.kept t a b ∧ w.kept t a b ≤ 1 := by
  unfold World.kept
  split
  · norm_num
  · rename_i T _
    obtain ⟨f1, f2⟩ := fee_range (T := T) h
    have g1 : (0 : ℝ) ≤ (w.conv T).fee := by exact_mod_cast (by omega : 0 ≤ (w.conv T).fee)
    have g2 : ((w.conv T).fee : ℝ) ≤ 1000000 := by exact_mod_cast (by omega : (w.conv T).fee ≤ 1000000)
    have h1 : (0 : ℝ) ≤ 1 - ((w.conv T).fee : ℝ) / 1000000 := by rw [sub_nonneg, div_le_one (by norm_num)]; exact g2
    have h2 : 1 - ((w.conv T).fee : ℝ) / 1000000 ≤ 1 := by have : 0 ≤ ((w.conv T).fee : ℝ) / 1000000 := by positivity
                                                           linarith
    exact ⟨pow_nonneg h1 _, pow_le_one₀ h1 h2⟩

theorem keptAlong_range (h : Reachable w) : ∀ {rest : List Addr} {a : Addr}, 0 ≤ w.keptAlong a rest ∧ w.keptAlong a rest ≤ 1
  | [], _ => by simp [World.keptAlong]
  | [_], _ => by simp [World.keptAlong]
  | t :: b :: rest, a => by
    obtain ⟨h1, h2⟩ := keptAlong_range h (rest := rest) (a := b)
    obtain ⟨h3, h4⟩ := kept_range (t := t) (a := a) (b := b) h
    exact ⟨mul_nonneg h3 h1, mul_le_one₀ h4 h1 h2⟩

theorem atRates_mono (h : Reachable w) : ∀ {rest : List Addr} {a : Addr} {x y : ℝ}, x ≤ y → w.atRates a rest x ≤ w.atRates a rest y
  | [], _, _, _, hxy => hxy
  | [_], _, _, _, hxy => hxy
  | t :: b :: rest, a, x, y, hxy => by
    have h1 := mul_le_mul_of_nonneg_right hxy (rate_nonneg (t := t) (a := a) (b := b) h)
    exact atRates_mono h (rest := rest) (a := b) (mul_le_mul_of_nonneg_right (by linarith) (kept_range h).1)

theorem Passed.atRates (h : Reachable w) (hp : Passed N w w' a rest v r) : SizedPath w w' a rest → (r : ℝ) ≤ w.atRates a rest v := by
  induction hp with
  | done => intro _; exact le_rfl
  | @hop a t b T R rest v c r1 r own wired ne pos pos1 real curve fee le pool next ih =>
    intro hs
    obtain ⟨-, h2, h3⟩ := hs.1 T own
    have hc := curve_rate wired ne pos.le real curve h2 (fun e => by
      subst e
      have h4 := h3 rfl
      rw [pool.bal a ne] at h4
      simpa [ne] using h4)
    refine (ih hs.2).trans (atRates_mono h ?_)
    have hk : w.kept t a b = (1 - ((w.conv T).fee : ℝ) / 1000000) ^ (w.feeSteps T a b) := by
      unfold World.kept World.feeSteps
      rw [own, wired.token]
      have e1 : t = b ↔ b = t := eq_comm
      have e2 : t = a ↔ a = t := eq_comm
      simp only [Option.some.injEq, e1, e2, or_comm]
    have hr : w.rate t a b = w.share T t b / w.share T t a := by unfold World.rate; rw [own]
    rw [fee]
    refine afterFee_le_real.trans ?_
    rw [← hk, hr]
    exact mul_le_mul_of_nonneg_right hc (kept_range h).1

theorem Ride.passed (h : Ride w w' N s a rest v r) : Passed N w w' a rest v r := by
  have hks : w.kind s ≠ .conv := by
    intro h1; have := h.reachable.basic.contract s (by rw [h1]; nofun); rw [h.plain] at this; cases this
  have he : EvenTail rest := by
    obtain ⟨orc, k, tx, m, coins, x, ho, hx, hset⟩ := h.carried
    obtain ⟨_, _, _, _, _, _, _, _, _, hl, _⟩ := order_exact h.reachable.basic h.net h.honest ho h.plain (ne_net h.reachable h.net h.plain) h.plain hx
    exact (legal_iff_stops.mp hl).1
  have hlast := (h.honest.wayBack he).head
  refine (carried_passed h.reachable h.net h.honest h.sized.real h.plain h.carried ⟨hks, ?_⟩).1
  intro e
  rw [← e] at hlast
  have := h.reachable.basic.contract s (by intro e; rw [e] at hlast; exact absurd hlast (by decide)); rw [h.plain] at this; cases this

/-- C83. What a conversion along a path brings is at most the amount at the rates of the pools on the path, each with a unit added for its rounding and its fee taken off. -/
theorem C83_rates (h : Ride w w' N s a rest v r) : (r : ℝ) ≤ w.atRates a rest v := h.passed.atRates h.reachable h.sized

theorem Quoted.atRates (h : Reachable w) {x : ℝ} (hq : Quoted w a rest v r) : HonestPath w N a rest → SizedQuote w a rest x → 0 ≤ v → (v : ℝ) ≤ x → (r : ℝ) ≤ w.atRates a rest x := by
  induction hq generalizing x with
  | done => intro _ _ _ hx; exact hx
  | @hop a t b rest v T c r own curve tradable fee next ih =>
    intro hp hs hv hx
    obtain ⟨h1, h2, h3⟩ := hs.1 T own
    obtain ⟨T', R, own', wired⟩ := hp.2.1
    rw [own] at own'; cases own'
    have hB : (0 : ℝ) ≤ (w.tok t).supply := by exact_mod_cast (C01_supply_is_sum h t).2.2
    have hc := curve_rate wired tradable.1 hv h1 curve h2 (fun e => by
      have h4 := h3 e
      have h5 : ((w.tok t).supply : ℝ) * ((w.tok a).bal T + v) ≤ ((w.tok t).supply : ℝ) * ((w.tok a).bal T + x) := mul_le_mul_of_nonneg_left (by linarith) hB
      have h6 := h5.trans h4
      exact_mod_cast h6)
    have hk : w.kept t a b = (1 - ((w.conv T).fee : ℝ) / 1000000) ^ (w.feeSteps T a b) := by
      unfold World.kept World.feeSteps
      rw [own, wired.token]
      have e1 : t = b ↔ b = t := eq_comm
      have e2 : t = a ↔ a = t := eq_comm
      simp only [Option.some.injEq, e1, e2, or_comm]
    have hr : w.rate t a b = w.share T t b / w.share T t a := by unfold World.rate; rw [own]
    have hc0 : 0 ≤ c := by
      unfold World.curve at curve
      split at curve
      · exact C44_purchase hv curve
      · split at curve
        · exact (C44_sale hv curve).1
        · exact (C44_cross hv curve).1
    refine ih hp.2.2 hs.2 (C24_range h hc0 _).1 ?_
    refine afterFee_le_real.trans ?_
    rw [← hk]
    refine mul_le_mul_of_nonneg_right ?_ (kept_range h).1
    have h7 := mul_le_mul_of_nonneg_right hx (rate_nonneg (t := t) (a := a) (b := b) h)
    rw [hr] at h7 ⊢
    linarith

/-- C83. Nor does `getExpectedReturnByPath` promise more. -/
theorem C83_quote (h : Reachable w) (hk : w.kind N = .net) (hp : HonestPath w N a rest) {orc : Oracle} {n : Nat} {cv : Int} {w1 : World} {p : List Char} (hs : SizedQuote w a rest v)
    (ht : PathText p (a :: rest)) (hq : exec orc n s N cv (.getExpectedReturnByPath p v) w = .ok (.int r, w1)) : (r : ℝ) ≤ w.atRates a rest v := by
  obtain ⟨-, hv, -, a', rest', e, hx⟩ := quote_path hk hq ht
  cases e
  obtain ⟨r', e, hr, -⟩ := hx hp
  cases e
  exact hr.atRates h hp hs hv.le le_rfl

theorem atRates_value (h : Reachable w) {value : Addr → ℝ} (hv : ∀ z, 0 ≤ value z) : ∀ {rest : List Addr} {a : Addr} {x : ℝ}, EvenTail rest → 0 ≤ x → InLine w value a rest →
    w.atRates a rest x * value (lastOf a rest) ≤ w.keptAlong a rest * (x * value a) + oneEach value rest
  | [], a, x, _, _, _ => by simp [World.atRates, World.keptAlong, oneEach, lastOf]
  | [_], _, _, he, _, _ => he.elim
  | t :: b :: rest, a, x, he, hx, hl => by
    obtain ⟨k1, k2⟩ := kept_range (t := t) (a := a) (b := b) h
    obtain ⟨k3, k4⟩ := keptAlong_range h (rest := rest) (a := b)
    have hr := rate_nonneg (t := t) (a := a) (b := b) h
    have ih := atRates_value h hv (rest := rest) (a := b) (x := (x * w.rate t a b + 1) * w.kept t a b) he (mul_nonneg (by have := mul_nonneg hx hr; linarith) k1) hl.2
    simp only [World.atRates, World.keptAlong, oneEach, lastOf]
    refine ih.trans ?_
    have h1 : x * (w.rate t a b * value b) ≤ x * value a := mul_le_mul_of_nonneg_left hl.1 hx
    have h2 : w.kept t a b * w.keptAlong b rest ≤ 1 := mul_le_one₀ k2 k3 k4
    have h3 : 0 ≤ w.kept t a b * w.keptAlong b rest := mul_nonneg k1 k3
    have h4 := mul_le_mul_of_nonneg_left h1 h3
    have h5 := mul_le_mul_of_nonneg_right h2 (hv b)
    have e : w.keptAlong b rest * ((x * w.rate t a b + 1) * w.kept t a b * value b) =
        w.kept t a b * w.keptAlong b rest * (x * (w.rate t a b * value b)) + w.kept t a b * w.keptAlong b rest * value b := by ring
    rw [e]
    linarith

/-- C83. If there are values of the tokens with which no pool on the path gives more than it gets, then what a conversion brings is worth at most what was put in, less the fees of all
converters on the path, but for a unit of each token received on the way. -/
theorem C83_value (h : Ride w w' N s a rest v r) {value : Addr → ℝ} (hv : ∀ z, 0 ≤ value z) (hl : InLine w value a rest) :
    r * value (lastOf a rest) ≤ w.keptAlong a rest * (v * value a) + oneEach value rest := by
  have he : EvenTail rest := by
    obtain ⟨orc, k, tx, m, coins, x, ho, hx, hset⟩ := h.carried
    obtain ⟨_, _, _, _, _, _, _, _, _, hl, _⟩ := order_exact h.reachable.basic h.net h.honest ho h.plain (ne_net h.reachable h.net h.plain) h.plain hx
    exact (legal_iff_stops.mp hl).1
  have h0 : (0 : ℝ) ≤ v := by
    have hp := h.passed
    cases hp with
    | done => 
      obtain ⟨orc, k, tx, m, coins, x, ho, hx, hset⟩ := h.carried
      obtain ⟨_, _, _, _, _, _, _, _, _, hl, _⟩ := order_exact h.reachable.basic h.net h.honest ho h.plain (ne_net h.reachable h.net h.plain) h.plain hx
      exact absurd rfl (legal_iff_stops.mp hl).2.1
    | hop own wired ne pos => exact_mod_cast pos.le
  exact (mul_le_mul_of_nonneg_right (C83_rates h) (hv _)).trans (atRates_value h.reachable hv he h0 hl)

/-- C83. So nobody gains by converting around, from a token back to the same token: what comes back is at most what was put in less the fees of all converters on the way, but for the
worth of a unit of each token received. -/
theorem C83_around (h : Ride w w' N s a rest v r) (hz : lastOf a rest = a) {value : Addr → ℝ} (hv : ∀ z, 0 ≤ value z) (ha : 0 < value a) (hl : InLine w value a rest) :
    r ≤ w.keptAlong a rest * v + oneEach value rest / value a := by
  have h1 := C83_value h hv hl
  rw [hz] at h1
  have h2 : (w.keptAlong a rest * v + oneEach value rest / value a) * value a = w.keptAlong a rest * (v * value a) + oneEach value rest := by
    rw [add_mul, div_mul_cancel₀ _ ha.ne']; ring
  rw [← h2] at h1
  exact le_of_mul_le_mul_right h1 ha

end

/-! ### The hypotheses are met -/

section
open Scenario

/-- A second pool in which the first flexible token and the IRC2 token can be exchanged, in line with the first pool: a flexible token for two others. -/
def twoPools : World := Scenario.run [
  .deploy owner flex2 (.flex "Flex2" "FL2" 40000 0),
  .deploy owner conv2 (.conv (some flex2) (some registry) 30000 (some flex) 500000),
  .call owner conv2 0 (.addConnector irc 250000 false),
  .call owner flex 0 (.transfer conv2 20000 none),
  .call owner irc 0 (.transfer conv2 20000 none),
  .call owner flex2 0 (.transferOwnerShip conv2),
  .call owner conv2 0 .acceptTokenOwnership,
  .call owner conv2 0 (.setConversionFee 2000)] ready

theorem twoPools_reachable : Reachable twoPools := Scenario.run_reachable _ ready_reachable

set_option maxRecDepth 100000 in
theorem twoPools_facts : twoPools.kind network = .net ∧ (twoPools.kind irc).isToken ∧ (twoPools.kind flex).isToken ∧ (twoPools.own flex).owner = some conv ∧
    (twoPools.own flex2).owner = some conv2 ∧ twoPools.net network irc = false ∧ twoPools.kind alice ≠ .conv := by decide +kernel

set_option maxRecDepth 100000 in
theorem twoPools_numbers : (twoPools.tok flex).supply = 100000 ∧ (twoPools.tok irc).bal conv = 50000 ∧ ((twoPools.conv conv).connectors irc).weight = 250000 ∧ (twoPools.conv conv).fee = 1000 ∧
    (twoPools.tok flex).bal conv2 = 20000 ∧ ((twoPools.conv conv2).connectors flex).weight = 500000 ∧ (twoPools.tok irc).bal conv2 = 20000 ∧
    ((twoPools.conv conv2).connectors irc).weight = 250000 ∧ (twoPools.conv conv2).fee = 2000 ∧ ((twoPools.conv conv).connectors irc).isVirtual = false ∧
    ((twoPools.conv conv2).connectors irc).isVirtual = false ∧ ((twoPools.conv conv2).connectors flex).isVirtual = false := by decide +kernel

set_option maxRecDepth 100000 in
theorem twoPools_wired : Wired twoPools conv flex registry network ∧ Wired twoPools conv2 flex2 registry network := by
  constructor <;> refine wired_of_reachable twoPools_reachable ?_ ?_ ?_ ?_ ?_ ?_ ?_ <;> decide +kernel

/-- Around: IRC2 tokens into flexible tokens at the first converter, these into IRC2 tokens at the second one. -/
def around : Tx := .call alice irc 0 (.transfer network 5000 (some (request [irc, flex, flex, flex2, irc] 1)))

/-- A concrete order from a token around to the same token. -/
theorem around_order {k : Nat} {orc : Oracle} {w : World} {N s a : Addr} {v m r : Int} {rest : List Addr} {tx : Tx} (h : Reachable w) (hk : w.kind N = .net)
    (hp : HonestPath w N a rest) (hs : s.isContract = false) (hab : lastOf a rest = a) (hnet : w.net N a = false)
    (ho : Order N s v m s false (a :: rest) tx) (hx : (tx.run orc k w).toOption.isSome = true)
    (hgot : ((tx.apply orc k w).tok a).bal s = (w.tok a).bal s - v + r) :
    Carried w (tx.apply orc k w) N s (a :: rest) a a v r := by
  cases hrun : tx.run orc k w with
  | error e => rw [hrun] at hx; cases hx
  | ok xw =>
    obtain ⟨x, w'⟩ := xw
    have he : tx.apply orc k w = w' := by unfold Tx.apply; rw [hrun]
    rw [he] at hgot ⊢
    have hsN := ne_net h hk hs
    have hks : w.kind s ≠ .conv := by
      intro h1; have := h.basic.contract s (by rw [h1]; nofun); rw [hs] at this; cases this
    obtain ⟨u', r', -, -, -, -, hset, -⟩ := order_exact h.basic hk hp ho hs hsN hs hrun
    rw [hab] at hset
    have h1 := hset.tokens s hsN hks a
    simp only [hnet, and_self, if_true] at h1
    have : r' = r := by omega
    subst this
    exact ⟨orc, k, tx, m, false, x, ho, hrun, hset⟩

set_option maxRecDepth 100000 in
/-- Alice puts in 5000 and gets 4050 back: the prices were in line, and her trade moved them. -/
theorem aroundRide : Ride twoPools (around.apply Scenario.orc 20 twoPools) network alice irc [flex, flex, flex2, irc] 5000 4050 := by
  obtain ⟨f1, f2, f3, f4, f5, f6, -⟩ := twoPools_facts
  obtain ⟨n1, n2, n3, n4, n5, n6, n7, n8, n9, n10, n11, n12⟩ := twoPools_numbers
  have hp : HonestPath twoPools network irc [flex, flex, flex2, irc] := ⟨f2, ⟨_, _, f4, twoPools_wired.1⟩, f3, ⟨_, _, f5, twoPools_wired.2⟩, f2⟩
  refine {
    reachable := twoPools_reachable
    plain := rfl
    net := f1
    honest := hp
    sized := ⟨fun T hT => ?_, fun T hT => ?_, trivial⟩
    carried := around_order twoPools_reachable f1 hp rfl rfl f6 (.tokens (request_requests (by nofun))) (by decide +kernel) (by decide +kernel) }
  · rw [f4] at hT; cases hT
    refine ⟨by rintro z (rfl | rfl) h; · exact n10
               exact absurd rfl h, fun h => absurd rfl h, fun _ => ?_⟩
    rw [n1, n2, show ((around.apply Scenario.orc 20 twoPools).tok irc).bal conv = 55000 by decide +kernel]
    norm_num
  · rw [f5] at hT; cases hT
    refine ⟨by rintro z (rfl | rfl) h; · exact n12
               exact n11, fun _ => by rw [n7]; norm_num, fun h => absurd h (by decide)⟩

/-- What the tokens are worth: two IRC2 tokens for a flexible token. -/
def worth : Addr → ℝ := fun z => if z = flex then 2 else 1

theorem twoPools_inLine : InLine twoPools worth irc [flex, flex, flex2, irc] := by
  obtain ⟨f1, f2, f3, f4, f5, f6, -⟩ := twoPools_facts
  obtain ⟨n1, n2, n3, n4, n5, n6, n7, n8, n9, n10, n11, n12⟩ := twoPools_numbers
  have e1 : irc ≠ flex := by decide
  have e2 : irc ≠ flex2 := by decide
  have e3 : flex ≠ flex2 := by decide
  refine ⟨?_, ?_, trivial⟩
  · unfold World.rate
    rw [f4]
    simp only [World.share, if_true, if_neg e1, worth, n1, n2, n3]
    norm_num
  · unfold World.rate
    rw [f5]
    simp only [World.share, if_neg e2, if_neg e3, worth, if_neg e1, if_true, n5, n6, n7, n8]
    norm_num

/-- C83: whoever puts 5000 in, whatever the order, gets at most 4978 back. -/
example {w' : World} {s : Addr} {r : Int} (h : Ride twoPools w' network s irc [flex, flex, flex2, irc] 5000 r) : r ≤ 4978 := by
  obtain ⟨f1, f2, f3, f4, f5, f6, -⟩ := twoPools_facts
  obtain ⟨n1, n2, n3, n4, n5, n6, n7, n8, n9, n10, n11, n12⟩ := twoPools_numbers
  have e1 : irc ≠ flex := by decide
  have e2 : irc ≠ flex2 := by decide
  have e3 : flex ≠ flex2 := by decide
  have h1 := C83_around h rfl (value := worth) (fun z => by unfold worth; split <;> norm_num) (by simp [worth, e1]) twoPools_inLine
  have h2 : twoPools.keptAlong irc [flex, flex, flex2, irc] = 999 / 1000 * (998 / 1000) ^ 2 := by
    simp only [World.keptAlong, World.kept, f4, f5, n4, n9, if_neg e1, e2, e3, or_self, or_true, if_true, if_false]
    norm_num
  have h3 : oneEach worth [flex, flex, flex2, irc] / worth irc = 3 := by simp [oneEach, worth, e1]; norm_num
  rw [h2, h3] at h1
  have h4 : (r : ℝ) < (4979 : Int) := lt_of_le_of_lt h1 (by norm_num)
  have : r < 4979 := by exact_mod_cast h4
  omega

set_option maxRecDepth 100000 in
/-- C83: a quote along these pools, 4050 as well. -/
example : SizedQuote twoPools irc [flex, flex, flex2, irc] ((5000 : Int) : ℝ) ∧ HonestPath twoPools network irc [flex, flex, flex2, irc] ∧
    (Scenario.answer bob network (.getExpectedReturnByPath (pathText [irc, flex, flex, flex2, irc]) 5000) twoPools).toOption = some (.int 4050) := by
  obtain ⟨f1, f2, f3, f4, f5, f6, -⟩ := twoPools_facts
  obtain ⟨n1, n2, n3, n4, n5, n6, n7, n8, n9, n10, n11, n12⟩ := twoPools_numbers
  refine ⟨⟨fun T hT => ?_, fun T hT => ?_, trivial⟩, aroundRide.honest, by decide +kernel⟩
  · rw [f4] at hT; cases hT
    refine ⟨by rintro z (rfl | rfl) h; · exact n10
               exact absurd rfl h, fun h => absurd rfl h, fun _ => ?_⟩
    rw [n1, n2]
    norm_num
  · rw [f5] at hT; cases hT
    refine ⟨by rintro z (rfl | rfl) h; · exact n12
               exact n11, fun _ => by rw [n7]; norm_num, fun h => absurd h (by decide)⟩

end
end Verif
