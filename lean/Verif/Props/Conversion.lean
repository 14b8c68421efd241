import Verif.Props.Config
import Verif.Proofs.Open
import Verif.Proofs.PathQuote
import Mathlib.Tactic.Ring
import Mathlib.Tactic.Linarith
import Mathlib.Algebra.Order.Ring.Int
/-!
Properties C24-C31, C33, C34: fees, quotes and conversions at a converter.
-/
set_option linter.unusedSimpArgs false
set_option autoImplicit false
namespace Verif

open Scenario (ready ready_reachable alice bob owner)

/-! ### C24 -/

/-- C24. `getFinalAmount` answers the amount after the fee, charged `k` times, rounded down. -/
theorem C24_getFinalAmount {w : World} {T : Addr} (hk : w.kind T = .conv) (x : Int) (k : Nat) :
    Answers w T (.getFinalAmount x k) (.int (w.afterFee T x k)) := by
  refine answers_conv (m := fun cx => do return .int (← Converter.getFinalAmount cx x k)) hk ?_ ?_
  · intro f call hf; cases f; cases hf; rfl
  · intro f call u hf hu
    subst hf
    have hk' : ¬ (k : Int) < 0 := by omega
    simp only [Converter.getFinalAmount, Converter.finalAmount, okk, if_neg hk', Int.toNat_natCast, World.afterFee]
    rw [hu]
    exact ⟨_, rfl, rfl⟩

section
variable {w w' : World} {T T' : Addr}

theorem fee_range (h : Reachable w) : 0 ≤ 1000000 - (w.conv T).fee ∧ 1000000 - (w.conv T).fee ≤ 1000000 := by
  have := (h.convInv T).fee; omega

/-- C24. The amount after fees is between zero and the amount. -/
theorem C24_range (h : Reachable w) {x : Int} (hx : 0 ≤ x) (k : Nat) : 0 ≤ w.afterFee T x k ∧ w.afterFee T x k ≤ x := by
  obtain ⟨h1, h2⟩ := fee_range (T := T) h
  unfold World.afterFee
  have hp : (0 : Int) < 1000000 ^ k := by positivity
  have hq : (0 : Int) ≤ (1000000 - (w.conv T).fee) ^ k := pow_nonneg h1 k
  have hle : (1000000 - (w.conv T).fee) ^ k ≤ (1000000 : Int) ^ k := pow_le_pow_left₀ h1 h2 k
  refine ⟨Int.ediv_nonneg (mul_nonneg hx hq) hp.le, ?_⟩
  refine Int.ediv_le_of_le_mul hp ?_
  exact mul_le_mul_of_nonneg_left hle hx

/-- C24. Without a fee the amount is untouched; a fee of 100% takes everything. -/
theorem C24_extremes (x : Int) (k : Nat) : ((w.conv T).fee = 0 → w.afterFee T x k = x) ∧
    ((w.conv T).fee = 1000000 → 0 < k → w.afterFee T x k = 0) := by
  unfold World.afterFee
  constructor
  · intro h; rw [h, Int.sub_zero]; exact Int.mul_ediv_cancel _ (by positivity)
  · intro h hk; rw [h, Int.sub_self, zero_pow (by omega)]; simp

/-- C24. More in, more out. -/
theorem C24_monotone (h : Reachable w) {x y : Int} (hxy : x ≤ y) (k : Nat) : w.afterFee T x k ≤ w.afterFee T y k := by
  obtain ⟨h1, _⟩ := fee_range (T := T) h
  unfold World.afterFee
  exact Int.ediv_le_ediv (by positivity) (mul_le_mul_of_nonneg_right hxy (pow_nonneg h1 k))

/-- C24. A higher fee (of the same converter at another time, or of another converter) never leaves more. -/
theorem C24_antitone_in_fee (h' : Reachable w') (hf : (w.conv T).fee ≤ (w'.conv T').fee) {x : Int} (hx : 0 ≤ x)
    (k : Nat) : w'.afterFee T' x k ≤ w.afterFee T x k := by
  obtain ⟨h1, _⟩ := fee_range (T := T') h'
  unfold World.afterFee
  exact Int.ediv_le_ediv (by positivity) (mul_le_mul_of_nonneg_left (pow_le_pow_left₀ h1 (by omega) k) hx)

/-- C24. Charging more often never leaves more. -/
theorem C24_antitone_in_steps (h : Reachable w) {x : Int} (hx : 0 ≤ x) (k : Nat) :
    w.afterFee T x (k + 1) ≤ w.afterFee T x k := by
  obtain ⟨h1, h2⟩ := fee_range (T := T) h
  unfold World.afterFee
  generalize 1000000 - (w.conv T).fee = p at *
  rw [pow_succ, pow_succ, ← mul_assoc]
  calc x * p ^ k * p / (1000000 ^ k * 1000000) ≤ x * p ^ k * 1000000 / (1000000 ^ k * 1000000) := by
        refine Int.ediv_le_ediv (by positivity) ?_
        exact mul_le_mul_of_nonneg_left h2 (mul_nonneg hx (pow_nonneg h1 k))
    _ = x * p ^ k / 1000000 ^ k := Int.mul_ediv_mul_of_pos_left _ _ (by norm_num)

/-- C24. Magnitude 2 against charging the single fee twice: the same up to one unit of rounding, in the payee's favour. -/
theorem C24_twice (h : Reachable w) (x : Int) :
    w.afterFee T (w.afterFee T x 1) 1 ≤ w.afterFee T x 2 ∧ w.afterFee T x 2 ≤ w.afterFee T (w.afterFee T x 1) 1 + 1 := by
  obtain ⟨h1, h2⟩ := fee_range (T := T) h
  unfold World.afterFee
  generalize 1000000 - (w.conv T).fee = p at *
  simp only [pow_one]
  have hq : x * p / 1000000 * 1000000 ≤ x * p := Int.ediv_mul_le _ (by norm_num)
  have hq' : x * p < x * p / 1000000 * 1000000 + 1000000 := by
    have := Int.lt_ediv_add_one_mul_self (x * p) (show (0 : Int) < 1000000 by norm_num); linarith
  generalize x * p / 1000000 = q at *
  have e : x * p ^ 2 = x * p * p := by ring
  rw [e]
  constructor
  · rw [Int.le_ediv_iff_mul_le (by norm_num)]
    have h3 : q * p / 1000000 * 1000000 ≤ q * p := Int.ediv_mul_le _ (by norm_num)
    nlinarith
  · have h3 : q * p < q * p / 1000000 * 1000000 + 1000000 := by
      have := Int.lt_ediv_add_one_mul_self (q * p) (show (0 : Int) < 1000000 by norm_num); linarith
    have h4 : x * p * p / 1000000 ^ 2 < q * p / 1000000 + 1 + 1 := by
      rw [Int.ediv_lt_iff_lt_mul (by norm_num)]
      nlinarith
    omega

end

/-- C24: a fee of 0.1% on 12272, once and twice. -/
example : ready.afterFee Scenario.conv 12272 1 = 12259 ∧ ready.afterFee Scenario.conv 12272 2 = 12247 := by
  constructor <;> (unfold World.afterFee; rw [show (ready.conv Scenario.conv).fee = 1000 by set_option maxRecDepth 100000 in decide +kernel]; decide)

/-! ### The setting -/

section
variable {orc orc' : Oracle} {n n' : Nat} {w w' : World} {T t a b N R s : Addr} {x : Val} {v m : Int} {d : Data}

set_option maxRecDepth 100000 in
/-- The converter of the scenario, with its flexible token, registry and network, in a reachable ledger. -/
theorem ready_wired : Wired ready Scenario.conv Scenario.flex Scenario.registry Scenario.network where
  conv := by decide +kernel
  token := by decide +kernel
  flex := by decide +kernel
  registry := by decide +kernel
  reg := by decide +kernel
  network := by decide +kernel
  net := by decide +kernel
  contract := by decide +kernel
  coin := ready_reachable.basic.coin_nonneg

set_option maxRecDepth 100000 in
theorem ready_tokens : (ready.kind Scenario.irc).isToken ∧ (ready.kind Scenario.icxt).isToken ∧ (ready.kind Scenario.flex).isToken ∧
    (ready.own Scenario.flex).owner = some Scenario.conv := by decide +kernel

/-- A converter in a reachable ledger whose flexible token, registry and network are of this code base. -/
theorem wired_of_reachable (h : Reachable w) (h1 : w.kind T = .conv) (h2 : (w.conv T).token = some t) (h3 : w.kind t = .flex)
    (h4 : (w.conv T).registry = some R) (h5 : w.kind R = .reg) (h6 : w.reg R "Network" = some N) (h7 : w.kind N = .net) :
    Wired w T t R N :=
  ⟨h1, h2, h3, h4, h5, h6, h7, ⟨h.basic.contract _ (by rw [h1]; nofun), h.basic.contract _ (by rw [h7]; nofun)⟩,
    h.basic.coin_nonneg⟩

/-! ### C25 -/

/-- C25. Whenever `getReturn` answers, amount plus fee is what the formula gives for the current supply, balances and
weights; the fee is not negative; and nothing changes. -/
theorem C25_quote (hw : Wired w T t R N) (hka : (w.kind a).isToken) (hkb : (w.kind b).isToken) {cv : Int}
    (h : exec orc n s T cv (.getReturn a b v) w = .ok (x, w')) :
    ∃ amount fee, x = .ret amount fee ∧ w.curve T a b v 0 = .ok (amount + fee) ∧ 0 ≤ fee ∧ w.Alike w' := by
  obtain ⟨_, _, _, c, h1, h2, rfl, rfl⟩ := getReturn_effect hw hka hkb h
  refine ⟨_, _, rfl, ?_, by omega, (World.Alike.refl w).note.trans alike_readQuote⟩
  rw [h1]; congr 1; omega

theorem active_iff (hw : Wired w T t R N) : w.active T ↔ (w.own t).owner = some T := by
  unfold World.active; rw [hw.token]
  constructor
  · rintro ⟨_, h, h'⟩; cases h; exact h'
  · exact fun h => ⟨t, rfl, h⟩

/-- C25. And exactly when it answers: the converter is active, the pair is tradable, the formula accepts, and its value is not
below the amount after fees (which is so for every value that is not negative, `C24_range`). -/
theorem C25_when (hw : Wired w T t R N) (hka : (w.kind a).isToken) (hkb : (w.kind b).isToken) :
    (∃ x w', exec orc (n + 2) s T 0 (.getReturn a b v) w = .ok (x, w')) ↔
    w.active T ∧ w.tradable T a b ∧ ∃ c, w.curve T a b v 0 = .ok c ∧ w.afterFee T c (w.feeSteps T a b) ≤ c := by
  rw [active_iff hw]
  simp only [ok_exec_getReturn hw hka hkb, true_and]
  constructor
  · rintro ⟨x, w', h1, h2, c, h3, h4, _, _⟩; exact ⟨h1, h2, c, h3, h4⟩
  · rintro ⟨h1, h2, c, h3, h4⟩; exact ⟨_, _, h1, h2, c, h3, h4, rfl, rfl⟩

set_option maxRecDepth 100000 in
/-- C25: 5000 of the IRC token quote 2408 flexible tokens and a fee of 3; the other way round, and between connectors. -/
example : Scenario.answer alice Scenario.conv (.getReturn Scenario.irc Scenario.flex 5000) ready = .ok (.ret 2408 3) ∧
    ready.curve Scenario.conv Scenario.irc Scenario.flex 5000 0 = .ok 2411 ∧
    Scenario.answer alice Scenario.conv (.getReturn Scenario.flex Scenario.irc 5000) ready = .ok (.ret 9264 10) ∧
    Scenario.answer alice Scenario.conv (.getReturn Scenario.irc Scenario.icxt 5000) ready = .ok (.ret 4535 10) := by
  decide +kernel

/-! ### C26 -/

/-- C26. A purchase: the network sends `v` of connector `a`, asking for at least `m` flexible tokens. If it succeeds, the
network is issued exactly `r ≥ m` (and at least one), where `r` is the formula value for the balance before the deposit
reduced by the fee; the recorded virtual balance (if any) grows by exactly the deposit; nothing else changes. -/
theorem C26_buy (hw : Wired w T t R N) (hN : N ≠ ZERO) (hact : w.active T) (hka : (w.kind a).isToken)
    (hd : Asks d t m) (h : exec orc n N a 0 (.transfer T v (some d)) w = .ok (x, w')) :
    ∃ r c, m ≤ r ∧ 1 ≤ r ∧ 0 < v ∧ v ≤ (w.tok a).bal N ∧ (w.pay a N T v).curve T a t v v = .ok c ∧ r = w.afterFee T c 1 ∧
      (((w.pay a N T v).virt T a v).mint t N r).Alike w' := by
  have hf : (w.kind t).isToken := by rw [hw.flex]; simp [Kind.isToken]
  obtain ⟨h1, h2, _, r, hc, hal⟩ := hop_effect hw hN ((active_iff hw).mp hact) hka hf hd h
  obtain ⟨c, h3, h4, h5⟩ := hc.curve
  have hs : (w.pay a N T v).feeSteps T a t = 1 := by
    unfold World.feeSteps; rw [if_pos (.inl (by exact hw.token))]
  rw [hs] at h4
  refine ⟨r, c, hc.enough, by have := hc.min; have := hc.enough; omega, h1, h2, h3, h4, ?_⟩
  unfold World.traded at hal; rw [if_pos rfl] at hal; exact hal

/-- C26, at the level of balances. -/
theorem C26_buy_balances (hw : Wired w T t R N) (hN : N ≠ ZERO) (hact : w.active T) (hka : (w.kind a).isToken)
    (hd : Asks d t m) (h : exec orc n N a 0 (.transfer T v (some d)) w = .ok (x, w')) :
    a ≠ t ∧ ∃ r, m ≤ r ∧ 1 ≤ r ∧ (w'.tok t).supply = (w.tok t).supply + r ∧ (w'.tok t).bal N = (w.tok t).bal N + r ∧
      (∀ y, y ≠ N → (w'.tok t).bal y = (w.tok t).bal y) ∧
      (w'.tok a).supply = (w.tok a).supply ∧ (w'.tok a).bal N = (w.tok a).bal N - v ∧ (w'.tok a).bal T = (w.tok a).bal T + v ∧
      (∀ y, y ≠ N → y ≠ T → (w'.tok a).bal y = (w.tok a).bal y) ∧ (∀ z, z ≠ a → z ≠ t → w'.tok z = w.tok z) ∧
      ((w'.conv T).connectors a).virtualBalance = ((w.conv T).connectors a).virtualBalance +
        (if ((w.conv T).connectors a).isVirtual then v else 0) := by
  have hat : a ≠ t := by
    have hf : (w.kind t).isToken := by rw [hw.flex]; simp [Kind.isToken]
    obtain ⟨_, _, _, r, hc, _⟩ := hop_effect hw hN ((active_iff hw).mp hact) hka hf hd h
    exact hc.tradable.1
  have hNT : N ≠ T := by rintro rfl; have h1 := hw.net; rw [hw.conv] at h1; cases h1
  obtain ⟨r, c, h1, h2, _, _, _, _, hal⟩ := C26_buy hw hN hact hka hd h
  refine ⟨hat, r, h1, h2, ?_⟩
  rw [hal.tok, hal.conv]
  have e1 : ((w.pay a N T v).virt T a v).tok = (w.pay a N T v).tok := virt_tok ..
  refine ⟨?_, ?_, ?_, ?_, ?_, ?_, ?_, ?_, ?_⟩
  · simp [World.mint, e1, World.pay, hat.symm, setTok_tok, gain]
  · simp [World.mint, e1, World.pay, hat.symm, setTok_tok, gain]
  · intro y hy; simp [World.mint, e1, World.pay, hat.symm, setTok_tok, gain, hy]
  · simp [World.mint, e1, World.pay, hat, setTok_tok]
  · simp [World.mint, e1, World.pay, hat, setTok_tok, moveBal, hNT]
  · simp [World.mint, e1, World.pay, hat, setTok_tok, moveBal, hNT.symm]
  · intro y h1 h2; simp [World.mint, e1, World.pay, hat, setTok_tok, moveBal, h1, h2]
  · intro z h1 h2; simp [World.mint, e1, World.pay, hat, setTok_tok, h1, h2]
  · rw [mint_conv]
    unfold World.virt
    split
    · rename_i hv; rw [if_pos (by exact hv)]; simp [World.pay]
    · rename_i hv; rw [if_neg (by exact hv)]; simp [World.pay]

/-! ### C27 -/

/-- C27. A sale: the network sends `v` flexible tokens, asking for at least `m` of connector `b`. If it succeeds, exactly the
`v` sold tokens are destroyed and exactly `r ≥ m` (at least one) of `b` go from the converter to the network, `r` being the
formula value reduced by the fee; the recorded virtual balance (if any) shrinks by exactly `r`; nothing else changes. The
balance is emptied only if the whole supply was sold. -/
theorem C27_sell (hw : Wired w T t R N) (hN : N ≠ ZERO) (hact : w.active T) (hkb : (w.kind b).isToken)
    (hd : Asks d b m) (h : exec orc n N t 0 (.transfer T v (some d)) w = .ok (x, w')) :
    ∃ r c, m ≤ r ∧ 1 ≤ r ∧ 0 < v ∧ v ≤ (w.tok t).bal N ∧ w.curve T t b v 0 = .ok c ∧ r = w.afterFee T c 1 ∧
      (r < w.reserve T b ∨ (r = w.reserve T b ∧ v = (w.tok t).supply)) ∧
      ((((w.pay t N T v).virt T b (-r)).mint t T (-v)).pay b T N r).Alike w' := by
  have hf : (w.kind t).isToken := by rw [hw.flex]; simp [Kind.isToken]
  obtain ⟨h1, h2, _, r, hc, hal⟩ := hop_effect hw hN ((active_iff hw).mp hact) hf hkb hd h
  obtain ⟨c, h3, h4, h5⟩ := hc.curve
  have hbt : b ≠ t := hc.tradable.1.symm
  have hs : (w.pay t N T v).feeSteps T t b = 1 := by
    unfold World.feeSteps; rw [if_pos (.inr (by exact hw.token))]
  rw [hs] at h4
  have hp := hc.payable
  unfold World.payable at hp; rw [if_neg hbt, if_pos rfl] at hp
  have er : (w.pay t N T v).reserve T b = w.reserve T b := by
    unfold World.reserve World.pay; simp [setTok_tok, hbt]
  have es : ((w.pay t N T v).tok t).supply = (w.tok t).supply := by simp [World.pay]
  have ec : (w.pay t N T v).curve T t b v v = w.curve T t b v 0 := by
    unfold World.curve
    rw [er, es, pay_conv, hw.token, if_neg (by simpa using hbt.symm), if_pos rfl, if_neg (by simpa using hbt.symm), if_pos rfl]
  rw [er, es] at hp
  refine ⟨r, c, hc.enough, by have := hc.min; have := hc.enough; omega, h1, h2, by rw [← ec]; exact h3, h4, hp.2.2.2.1, ?_⟩
  unfold World.traded at hal; rw [if_neg hbt, if_pos rfl] at hal; exact hal

/-- C27, at the level of balances. -/
theorem C27_sell_balances (hw : Wired w T t R N) (hN : N ≠ ZERO) (hact : w.active T) (hkb : (w.kind b).isToken)
    (hd : Asks d b m) (h : exec orc n N t 0 (.transfer T v (some d)) w = .ok (x, w')) :
    b ≠ t ∧ ∃ r, m ≤ r ∧ 1 ≤ r ∧ (w'.tok t).supply = (w.tok t).supply - v ∧ (w'.tok t).bal N = (w.tok t).bal N - v ∧
      (∀ y, y ≠ N → (w'.tok t).bal y = (w.tok t).bal y) ∧
      (w'.tok b).supply = (w.tok b).supply ∧ (w'.tok b).bal N = (w.tok b).bal N + r ∧ (w'.tok b).bal T = (w.tok b).bal T - r ∧
      (∀ y, y ≠ N → y ≠ T → (w'.tok b).bal y = (w.tok b).bal y) ∧ (∀ z, z ≠ b → z ≠ t → w'.tok z = w.tok z) ∧
      ((w'.conv T).connectors b).virtualBalance = ((w.conv T).connectors b).virtualBalance -
        (if ((w.conv T).connectors b).isVirtual then r else 0) := by
  have hbt : b ≠ t := by
    have hf : (w.kind t).isToken := by rw [hw.flex]; simp [Kind.isToken]
    obtain ⟨_, _, _, r, hc, _⟩ := hop_effect hw hN ((active_iff hw).mp hact) hf hkb hd h
    exact hc.tradable.1.symm
  have hNT : N ≠ T := by rintro rfl; have h1 := hw.net; rw [hw.conv] at h1; cases h1
  obtain ⟨r, c, h1, h2, _, _, _, _, _, hal⟩ := C27_sell hw hN hact hkb hd h
  refine ⟨hbt, r, h1, h2, ?_⟩
  rw [hal.tok, hal.conv]
  have e1 : ((w.pay t N T v).virt T b (-r)).tok = (w.pay t N T v).tok := virt_tok ..
  refine ⟨?_, ?_, ?_, ?_, ?_, ?_, ?_, ?_, ?_⟩
  · simp [World.mint, e1, World.pay, hbt.symm, setTok_tok]; omega
  · simp [World.mint, e1, World.pay, hbt.symm, setTok_tok, gain, moveBal, hNT]
  · intro y hy
    have e2 : (((w.pay t N T v).virt T b (-r)).mint t T (-v)).tok t = _ := setTok_tok_same ..
    have e3 : ((((w.pay t N T v).virt T b (-r)).mint t T (-v)).pay b T N r).tok t = _ :=
      (setTok_tok ..).trans (if_neg hbt.symm)
    rw [e3, e2, e1]
    simp only [World.pay, setTok_tok_same, gain, moveBal, hy, if_false]
    split <;> omega
  · simp [World.mint, e1, World.pay, hbt, setTok_tok]
  · simp [World.mint, e1, World.pay, hbt, setTok_tok, moveBal, hNT]
  · simp [World.mint, e1, World.pay, hbt, setTok_tok, moveBal, hNT.symm]
  · intro y h1 h2; simp [World.mint, e1, World.pay, hbt, setTok_tok, moveBal, h1, h2]
  · intro z h1 h2; simp [World.mint, e1, World.pay, hbt, setTok_tok, h1, h2]
  · rw [pay_conv, mint_conv]
    unfold World.virt
    split
    · rename_i hv; rw [if_pos (by exact hv)]; simp [World.pay]; omega
    · rename_i hv; rw [if_neg (by exact hv)]; simp [World.pay]

/-! ### C28 -/

/-- C28. A conversion between connectors: the network sends `v` of connector `a`, asking for at least `m` of connector `b`.
If it succeeds, exactly `r ≥ m` (at least one) of `b` go from the converter to the network, `r` being the formula value for
the balance before the deposit reduced by the fee, charged twice; recorded virtual balances grow by the deposit and shrink by
the payment; nothing else changes (no flexible token is issued or destroyed). The payment is below the balance. -/
theorem C28_cross (hw : Wired w T t R N) (hN : N ≠ ZERO) (hact : w.active T) (hka : (w.kind a).isToken) (hkb : (w.kind b).isToken)
    (hat : a ≠ t) (hbt : b ≠ t) (hd : Asks d b m) (h : exec orc n N a 0 (.transfer T v (some d)) w = .ok (x, w')) :
    ∃ r c, m ≤ r ∧ 1 ≤ r ∧ 0 < v ∧ v ≤ (w.tok a).bal N ∧ (w.pay a N T v).curve T a b v v = .ok c ∧ r = w.afterFee T c 2 ∧
      r < w.reserve T b ∧ ((((w.pay a N T v).virt T a v).virt T b (-r)).pay b T N r).Alike w' := by
  obtain ⟨h1, h2, _, r, hc, hal⟩ := hop_effect hw hN ((active_iff hw).mp hact) hka hkb hd h
  obtain ⟨c, h3, h4, h5⟩ := hc.curve
  have hab : a ≠ b := hc.tradable.1
  have hs : (w.pay a N T v).feeSteps T a b = 2 := by
    unfold World.feeSteps; rw [pay_conv, hw.token, if_neg]; simp [hat.symm, hbt.symm]
  rw [hs] at h4
  have hp := hc.payable
  unfold World.payable at hp; rw [if_neg hbt, if_neg hat] at hp
  have er : (w.pay a N T v).reserve T b = w.reserve T b := by
    unfold World.reserve World.pay; simp [setTok_tok, hab.symm]
  rw [er] at hp
  have hr1 : 1 ≤ r := by have := hc.min; have := hc.enough; omega
  refine ⟨r, c, hc.enough, hr1, h1, h2, h3, h4, ?_, ?_⟩
  · have := hp.2.2.2; split at this <;> omega
  · unfold World.traded at hal; rw [if_neg hbt, if_neg hat] at hal; exact hal

/-- C28, at the level of balances. -/
theorem C28_cross_balances (hw : Wired w T t R N) (hN : N ≠ ZERO) (hact : w.active T) (hka : (w.kind a).isToken)
    (hkb : (w.kind b).isToken) (hat : a ≠ t) (hbt : b ≠ t) (hd : Asks d b m)
    (h : exec orc n N a 0 (.transfer T v (some d)) w = .ok (x, w')) :
    a ≠ b ∧ ∃ r, m ≤ r ∧ 1 ≤ r ∧ w'.tok t = w.tok t ∧
      (w'.tok a).supply = (w.tok a).supply ∧ (w'.tok a).bal N = (w.tok a).bal N - v ∧ (w'.tok a).bal T = (w.tok a).bal T + v ∧
      (∀ y, y ≠ N → y ≠ T → (w'.tok a).bal y = (w.tok a).bal y) ∧
      (w'.tok b).supply = (w.tok b).supply ∧ (w'.tok b).bal N = (w.tok b).bal N + r ∧ (w'.tok b).bal T = (w.tok b).bal T - r ∧
      (∀ y, y ≠ N → y ≠ T → (w'.tok b).bal y = (w.tok b).bal y) ∧ (∀ z, z ≠ a → z ≠ b → w'.tok z = w.tok z) := by
  have hab : a ≠ b := by
    obtain ⟨_, _, _, r, hc, _⟩ := hop_effect hw hN ((active_iff hw).mp hact) hka hkb hd h
    exact hc.tradable.1
  have hNT : N ≠ T := by rintro rfl; have h1 := hw.net; rw [hw.conv] at h1; cases h1
  obtain ⟨r, c, h1, h2, _, _, _, _, _, hal⟩ := C28_cross hw hN hact hka hkb hat hbt hd h
  refine ⟨hab, r, h1, h2, ?_⟩
  rw [hal.tok]
  have e1 : (((w.pay a N T v).virt T a v).virt T b (-r)).tok = (w.pay a N T v).tok := by rw [virt_tok, virt_tok]
  refine ⟨?_, ?_, ?_, ?_, ?_, ?_, ?_, ?_, ?_, ?_⟩
  · simp [e1, World.pay, hat.symm, hbt.symm, setTok_tok]
  · simp [e1, World.pay, hab, setTok_tok]
  · simp [e1, World.pay, hab, setTok_tok, moveBal, hNT]
  · simp [e1, World.pay, hab, setTok_tok, moveBal, hNT.symm]
  · intro y h1 h2; simp [e1, World.pay, hab, setTok_tok, moveBal, h1, h2]
  · simp [e1, World.pay, hab.symm, setTok_tok]
  · simp [e1, World.pay, hab.symm, setTok_tok, moveBal, hNT]
  · simp [e1, World.pay, hab.symm, setTok_tok, moveBal, hNT.symm]
  · intro y h1 h2; simp [e1, World.pay, hab.symm, setTok_tok, moveBal, h1, h2]
  · intro z h1 h2; simp [e1, World.pay, setTok_tok, h1, h2]

/-! ### Examples for C26-C28 -/

/-- The network holds 5000 of the IRC token and 5000 flexible tokens (as in the middle of a conversion). -/
def funded : World := Scenario.run [.call alice Scenario.irc 0 (.transfer Scenario.network 5000 (some .conversionResult)),
  .call alice Scenario.flex 0 (.transfer Scenario.network 5000 (some .conversionResult))] ready

theorem funded_reachable : Reachable funded := Scenario.run_reachable _ ready_reachable

set_option maxRecDepth 100000 in
theorem funded_wired : Wired funded Scenario.conv Scenario.flex Scenario.registry Scenario.network :=
  wired_of_reachable funded_reachable (by decide +kernel) (by decide +kernel) (by decide +kernel) (by decide +kernel)
    (by decide +kernel) (by decide +kernel) (by decide +kernel)

set_option maxRecDepth 100000 in
theorem funded_tokens : (funded.kind Scenario.irc).isToken ∧ (funded.kind Scenario.icxt).isToken ∧
    (funded.kind Scenario.flex).isToken ∧ (funded.own Scenario.flex).owner = some Scenario.conv ∧ Scenario.network ≠ ZERO := by
  decide +kernel

/-- What the network holds of token `b` after sending 5000 of `a` to the converter, asking for `b`. -/
def afterHop (a b : Addr) (m : Int) : Option Int :=
  match exec Scenario.orc 20 Scenario.network a 0 (.transfer Scenario.conv 5000 (some (Network.requestData b m))) funded with
  | .ok (_, w') => some ((w'.tok b).bal Scenario.network)
  | .error _ => none

set_option maxRecDepth 100000 in
/-- C26-C28: all three conversions go through, paying exactly what is quoted; one more is too much to ask. -/
example : afterHop Scenario.irc Scenario.flex 2408 = some (5000 + 2408) ∧ afterHop Scenario.irc Scenario.flex 2409 = none ∧
    afterHop Scenario.flex Scenario.irc 9264 = some (5000 + 9264) ∧ afterHop Scenario.flex Scenario.irc 9265 = none ∧
    afterHop Scenario.irc Scenario.icxt 4535 = some 4535 ∧ afterHop Scenario.irc Scenario.icxt 4536 = none := by decide +kernel

/-! ### C29 -/

/-- C29. If a converter's `tokenFallback` succeeds - called by any token `s`, honest or not - it is either a plain deposit of
connector tokens by the owner into the inactive converter, or: conversions are enabled, the converter owns its flexible token,
the amount and the requested minimum are positive, the tokens differ, each is the flexible token or a connector (with purchases
enabled where that matters), and the trader is the network listed in the registry. -/
theorem C29_open_only (hw : Wired w T t R N) {f : Addr} {cv : Int}
    (h : exec orc n s T cv (.tokenFallback f v d) w = .ok (x, w')) :
    0 < v ∧ ((w.own T).owner = some f ∧ ((w.conv T).connectors s).isSet = true ∧ ¬ w.active T ∨
      f = N ∧ (w.conv T).enabled = true ∧ w.active T ∧ ∃ b m, Asks d b m ∧ 0 < m ∧ w.tradable T s b) := by
  obtain ⟨_, h1, h2⟩ := fallback_open hw h
  rw [active_iff hw]
  exact ⟨h1, h2⟩

/-- C29. While conversions are disabled, or the converter does not own its flexible token, no conversion succeeds. -/
theorem C29_closed (hw : Wired w T t R N) {f : Addr} {cv : Int} (hc : (w.conv T).enabled = false ∨ ¬ w.active T)
    (hno : ¬ ((w.own T).owner = some f ∧ ((w.conv T).connectors s).isSet = true ∧ ¬ w.active T)) :
    Fails w s T cv (.tokenFallback f v d) := by
  intro orc n x w' h
  obtain ⟨_, h1 | ⟨_, h2, h3, _⟩⟩ := C29_open_only hw h
  · exact hno h1
  · rcases hc with hc | hc
    · rw [h2] at hc; cases hc
    · exact hc h3

/-- C29. No conversion of a non-positive amount, ever. -/
theorem C29_positive (hw : Wired w T t R N) {f : Addr} {cv : Int} (hv : v ≤ 0) : Fails w s T cv (.tokenFallback f v d) := by
  intro orc n x w' h
  have := (C29_open_only hw h).1; omega

/-- C29. At an active converter: no conversion for anybody but the registered network, none with a non-positive minimum, none
into the same token, none from or into a token that is neither the flexible token nor a connector. -/
theorem C29_refused (hw : Wired w T t R N) (hact : w.active T) {f : Addr} {cv : Int}
    (hno : f ≠ N ∨ (∀ b m, ¬ Asks d b m) ∨ ∃ b m, Asks d b m ∧ (m ≤ 0 ∨ s = b ∨
      (b ≠ t ∧ ((w.conv T).connectors b).isSet = false) ∨ (s ≠ t ∧ ((w.conv T).connectors s).isSet = false))) :
    Fails w s T cv (.tokenFallback f v d) := by
  intro orc n x w' h
  obtain ⟨_, ⟨_, _, h1⟩ | ⟨h1, _, _, b, m, h2, h3, h4⟩⟩ := C29_open_only hw h
  · exact h1 hact
  · rcases hno with h5 | h5 | ⟨b', m', h5, h6⟩
    · exact h5 h1
    · exact h5 b m h2
    · have e : (b', m') = (b, m) := by
        have e1 := parse_iff.mpr h2; have e2 := parse_iff.mpr h5; rw [e1] at e2; injection e2 with e2; exact e2.symm
      injection e with e1 e2; subst e1; subst e2
      obtain ⟨h7, h8⟩ := h4
      rw [hw.token] at h8
      rcases h6 with h6 | h6 | ⟨h6, h9⟩ | ⟨h6, h9⟩
      · omega
      · exact h7 h6
      · rw [if_neg (by simpa using h6.symm)] at h8
        split at h8
        · rw [h9] at h8; cases h8
        · rw [h9] at h8; cases h8.2.1
      · split at h8
        · rw [h9] at h8; cases h8.1
        · rw [if_neg (by simpa using h6.symm), h9] at h8; cases h8.1

set_option maxRecDepth 100000 in
/-- C29: with conversions disabled the converter refuses what it accepted before. -/
example : ((Scenario.run [.call owner Scenario.conv 0 (.disableConversions true), Scenario.trade [Scenario.irc, Scenario.flex, Scenario.flex] 100 1] ready).tok Scenario.flex).bal alice = 10000 ∧
    ((Scenario.run [Scenario.trade [Scenario.irc, Scenario.flex, Scenario.flex] 100 1] ready).tok Scenario.flex).bal alice = 10048 := by
  decide +kernel

/-! ### C30 -/

/-- C30. While purchases with connector `a` are disabled, buying the flexible token with it fails. -/
theorem C30_no_purchase (hw : Wired w T t R N) (hact : w.active T) (hoff : ((w.conv T).connectors a).isPurchaseEnabled = false)
    {f : Addr} {cv : Int} (hd : Asks d t m) : Fails w a T cv (.tokenFallback f v d) := by
  intro orc n x w' h
  obtain ⟨_, ⟨_, _, h1⟩ | ⟨_, _, _, b, m', h2, _, h4⟩⟩ := C29_open_only hw h
  · exact h1 hact
  · have e : (b, m') = (t, m) := by
      have e1 := parse_iff.mpr h2; have e2 := parse_iff.mpr hd; rw [e1] at e2; injection e2
    injection e with e1 e2; subst e1
    obtain ⟨_, h8⟩ := h4
    rw [hw.token, if_pos rfl, hoff] at h8; cases h8.2

/-- C30. Nor can any other connector be converted into it. -/
theorem C30_no_cross_into (hw : Wired w T t R N) (hact : w.active T) (hoff : ((w.conv T).connectors b).isPurchaseEnabled = false)
    (hs : s ≠ t) (hbt : b ≠ t) {f : Addr} {cv : Int} (hd : Asks d b m) : Fails w s T cv (.tokenFallback f v d) := by
  intro orc n x w' h
  obtain ⟨_, ⟨_, _, h1⟩ | ⟨_, _, _, b', m', h2, _, h4⟩⟩ := C29_open_only hw h
  · exact h1 hact
  · have e : (b', m') = (b, m) := by
      have e1 := parse_iff.mpr h2; have e2 := parse_iff.mpr hd; rw [e1] at e2; injection e2
    injection e with e1 e2; subst e1
    obtain ⟨_, h8⟩ := h4
    rw [hw.token, if_neg (by simpa using hbt.symm), if_neg (by simpa using hs.symm), hoff] at h8; cases h8.2.2

/-- The ledger with purchases of connector `b` at converter `T` switched to `on`. -/
def World.setPurchases (w : World) (T b : Addr) (on : Bool) : World :=
  w.setConv T { w.conv T with connectors := upd (w.conv T).connectors b { (w.conv T).connectors b with isPurchaseEnabled := on } }

/-- C30. Selling the flexible token for `b` does not depend on the flag: it succeeds with it exactly when it succeeds without. -/
theorem C30_sale_unaffected (hw : Wired w T t R N) (hN : N ≠ ZERO) (hact : w.active T) (hkb : (w.kind b).isToken)
    (hd : Asks d b m) (on : Bool) :
    (∃ x w', exec orc (n + 3) N t 0 (.transfer T v (some d)) w = .ok (x, w')) ↔
    (∃ x w', exec orc (n + 3) N t 0 (.transfer T v (some d)) (w.setPurchases T b on) = .ok (x, w')) := by
  have hf : (w.kind t).isToken := by rw [hw.flex]; simp [Kind.isToken]
  have hown := (active_iff hw).mp hact
  have hw' : Wired (w.setPurchases T b on) T t R N :=
    ⟨hw.conv, by simp [World.setPurchases, hw.token], hw.flex, by simp [World.setPurchases, hw.registry], hw.reg, hw.network, hw.net, hw.contract, hw.coin⟩
  simp only [ok_exec_hop hw hN hown hf hkb hd, ok_exec_hop hw' hN (by exact hown) (by exact hf) (by exact hkb) hd]
  have hset : ∀ z, (((w.setPurchases T b on).conv T).connectors z).isSet = ((w.conv T).connectors z).isSet := by
    intro z; simp only [World.setPurchases, setConv_conv_same, upd_apply]; split <;> simp_all
  have hvirt : ∀ z, (((w.setPurchases T b on).conv T).connectors z).isVirtual = ((w.conv T).connectors z).isVirtual := by
    intro z; simp only [World.setPurchases, setConv_conv_same, upd_apply]; split <;> simp_all
  have hvb : ∀ z, (((w.setPurchases T b on).conv T).connectors z).virtualBalance = ((w.conv T).connectors z).virtualBalance := by
    intro z; simp only [World.setPurchases, setConv_conv_same, upd_apply]; split <;> simp_all
  have hwt : ∀ z, (((w.setPurchases T b on).conv T).connectors z).weight = ((w.conv T).connectors z).weight := by
    intro z; simp only [World.setPurchases, setConv_conv_same, upd_apply]; split <;> simp_all
  have htk : ((w.setPurchases T b on).conv T).token = (w.conv T).token := by simp [World.setPurchases]
  have hfee : ((w.setPurchases T b on).conv T).fee = (w.conv T).fee := by simp [World.setPurchases]
  have hen : ((w.setPurchases T b on).conv T).enabled = (w.conv T).enabled := by simp [World.setPurchases]
  have hres : ((w.setPurchases T b on).pay t N T v).reserve T b = (w.pay t N T v).reserve T b := by
    unfold World.reserve
    rw [pay_conv, pay_conv, hvirt, hvb]; rfl
  by_cases hbt : b = t
  · subst hbt
    constructor
    · rintro ⟨_, _, _, _, _, _, r, fee, h, _⟩; exact absurd rfl h.tradable.1
    · rintro ⟨_, _, _, _, _, _, r, fee, h, _⟩; exact absurd rfl h.tradable.1
  have hcur : ((w.setPurchases T b on).pay t N T v).curve T t b v v = (w.pay t N T v).curve T t b v v := by
    unfold World.curve
    have hne : ¬ (some t = some b) := by simpa using Ne.symm hbt
    rw [hres, pay_conv, pay_conv, htk, hw.token]
    simp only [if_neg hne, if_true, hwt]
    rfl
  have key : ∀ r, Converts ((w.setPurchases T b on).pay t N T v) T t t b v m r ↔ Converts (w.pay t N T v) T t t b v m r := by
    intro r
    have e1 : ((w.setPurchases T b on).pay t N T v).tradable T t b ↔ (w.pay t N T v).tradable T t b := by
      unfold World.tradable
      have hne : ¬ (some t = some b) := by simpa using Ne.symm hbt
      rw [pay_conv, pay_conv, htk, hw.token]
      simp only [if_neg hne, if_true, hset]
    have e2 : ((w.setPurchases T b on).pay t N T v).payable T t t b v r ↔ (w.pay t N T v).payable T t t b v r := by
      unfold World.payable
      rw [if_neg hbt, if_neg hbt, if_pos rfl, if_pos rfl, hres, pay_conv, pay_conv, hvirt, hvb]; rfl
    have e3 : ∀ c k, ((w.setPurchases T b on).pay t N T v).afterFee T c k = (w.pay t N T v).afterFee T c k := by
      intro c k; unfold World.afterFee; rw [pay_conv, pay_conv, hfee]
    have e4 : ((w.setPurchases T b on).pay t N T v).feeSteps T t b = (w.pay t N T v).feeSteps T t b := by
      unfold World.feeSteps; rw [pay_conv, pay_conv, htk]
    constructor
    · rintro ⟨h1, h2, h3, h4, h5, h6, h7⟩
      rw [hcur, e4] at h5; simp only [e3] at h5
      exact ⟨by rw [pay_conv, hen] at h1; exact h1, h2, h3, e1.mp h4, h5, h6, e2.mp h7⟩
    · rintro ⟨h1, h2, h3, h4, h5, h6, h7⟩
      refine ⟨by rw [pay_conv, hen]; exact h1, h2, h3, e1.mpr h4, ?_, h6, e2.mpr h7⟩
      rw [hcur, e4]; simp only [e3]; exact h5
  simp only [key, hcur]
  constructor
  · rintro ⟨_, _, h1, h2, h3, h4, r, fee, h5, h6, h7, _⟩; exact ⟨_, _, h1, h2, h3, h4, r, fee, h5, h6, h7, rfl⟩
  · rintro ⟨_, _, h1, h2, h3, h4, r, fee, h5, h6, h7, _⟩; exact ⟨_, _, h1, h2, h3, h4, r, fee, h5, h6, h7, rfl⟩

/-! ### C33 -/

/-- C33. Sending tokens to an active converter - whatever the token, honest or not - fails unless the sender is the registered
network and the data is a conversion request. -/
theorem C33_active (hw : Wired w T t R N) (hact : w.active T) {f : Addr} {cv : Int} (h : f ≠ N ∨ ∀ b m, ¬ Asks d b m) :
    Fails w s T cv (.tokenFallback f v d) :=
  C29_refused hw hact (by rcases h with h | h; exacts [.inl h, .inr (.inl h)])

/-- C33. To an inactive converter only its owner may send tokens, and only connector tokens. -/
theorem C33_inactive (hw : Wired w T t R N) (hact : ¬ w.active T) {f : Addr} {cv : Int}
    (h : (w.own T).owner ≠ some f ∨ ((w.conv T).connectors s).isSet = false) : Fails w s T cv (.tokenFallback f v d) :=
  C29_closed hw (.inr hact) (by rintro ⟨h1, h2, _⟩; rcases h with h | h; exacts [h h1, by rw [h] at h2; cases h2])

/-- C33. The owner of an inactive converter can deposit connector tokens with any data: the transfer succeeds exactly if it is
covered (and the token transferable), and moves the tokens and nothing else. -/
theorem C33_deposit (hw : Wired w T t R N) (hact : ¬ w.active T) (hk : (w.kind a).isToken) {f : Addr} {d : Option Data}
    (ho : (w.own T).owner = some f) (hset : ((w.conv T).connectors a).isSet = true) (haT : a ≠ T) :
    exec orc (n + 3) f a 0 (.transfer T v d) w = .ok (x, w') ↔
    (0 < v ∧ v ≤ (w.tok a).bal f ∧ (w.kind a = .flex → (w.flex a).transferable = true)) ∧ x = .unit ∧
    w' = ((((w.note f a 0 (.transfer T v d)).pay a f T v).note a T 0 (.tokenFallback f v (d.getD .noneBytes))).note T t 0
      .getOwner).addLog a (.Transfer f T v (d.getD .noneBytes)) := by
  rw [ok_exec_transfer hk]
  have hw1 : Wired ((w.note f a 0 (.transfer T v d)).pay a f T v) T t R N :=
    ⟨hw.conv, hw.token, hw.flex, hw.registry, hw.reg, hw.network, hw.net, hw.contract, hw.coin⟩
  have hna : (w.own t).owner ≠ some T := fun e => hact ((active_iff hw).mpr e)
  have hdep : ((w.note f a 0 (.transfer T v d)).pay a f T v).deposits T t a f := ⟨ho, hset, hna⟩
  have hchk : (((w.note f a 0 (.transfer T v d)).pay a f T v).note a T 0 (.tokenFallback f v (d.getD .noneBytes))).checked T t a f =
      (((w.note f a 0 (.transfer T v d)).pay a f T v).note a T 0 (.tokenFallback f v (d.getD .noneBytes))).note T t 0 .getOwner :=
    if_pos ⟨ho, hset⟩
  constructor
  · rintro ⟨_, h1, _, _, h2, h3, ⟨h4, _⟩ | ⟨_, y, w1, h4, rfl⟩⟩
    · rw [hw.contract.1] at h4; cases h4
    · rw [ok_exec_convFallback hw1] at h4
      obtain ⟨h5, ⟨_, _, rfl⟩ | ⟨h6, _⟩⟩ := h4
      · exact ⟨⟨h5, h2, h1⟩, h3, by rw [hchk]⟩
      · exact absurd hdep h6
  · rintro ⟨⟨h5, h2, h1⟩, h3, rfl⟩
    refine ⟨hw.coin f, h1, fun _ => haT, by omega, h2, h3, .inr ⟨hw.contract.1, .unit, _, ?_, rfl⟩⟩
    rw [ok_exec_convFallback hw1]
    exact ⟨h5, .inl ⟨hdep, rfl, hchk.symm⟩⟩

/-- The ledger of the scenario when the converter is set up but not yet active. -/
def idle : World := Scenario.run (Scenario.setup.take 8) Scenario.genesis

set_option maxRecDepth 100000 in
theorem idle_wired : Wired idle Scenario.conv Scenario.flex Scenario.registry Scenario.network :=
  wired_of_reachable (Scenario.run_reachable _ (.genesis Scenario.genesis_ok)) (by decide +kernel) (by decide +kernel)
    (by decide +kernel) (by decide +kernel) (by decide +kernel) (by decide +kernel) (by decide +kernel)

set_option maxRecDepth 100000 in
example : ¬ idle.active Scenario.conv ∧ (idle.kind Scenario.irc).isToken ∧ (idle.own Scenario.conv).owner = some owner ∧
    ((idle.conv Scenario.conv).connectors Scenario.irc).isSet = true ∧ Scenario.irc ≠ Scenario.conv ∧
    (idle.tok Scenario.irc).bal owner = 1000000 ∧
    Scenario.answer owner Scenario.irc (.transfer Scenario.conv 50000 none) idle = .ok .unit := by
  refine ⟨fun h => ?_, ?_⟩
  · have h1 := (active_iff idle_wired).mp h
    have h2 : (idle.own Scenario.flex).owner ≠ some Scenario.conv := by decide +kernel
    exact h2 h1
  · decide +kernel

/-- C33, for transfers of tokens of this code base: the balance of an active converter cannot be increased by a transfer from
anybody but the registered network; that of an inactive one by nobody but its owner. -/
theorem C33_transfer (hw : Wired w T t R N) (hk : (w.kind a).isToken) {f : Addr} {cv : Int} {d : Option Data}
    (h : (w.active T ∧ (f ≠ N ∨ ∀ b m, ¬ Asks (d.getD .noneBytes) b m)) ∨ (¬ w.active T ∧ (w.own T).owner ≠ some f)) :
    Fails w f a cv (.transfer T v d) := by
  intro orc n x w' he
  obtain ⟨_, _, h1⟩ := transfer_open hw hk he
  rw [active_iff hw] at h
  rcases h1 with ⟨h1, h2, h3⟩ | ⟨h1, _, h2, b, m, h3, _⟩
  · rcases h with ⟨h, _⟩ | ⟨_, h⟩
    · exact h3 h
    · exact h h1
  · rcases h with ⟨_, h | h⟩ | ⟨h, _⟩
    · exact h h1
    · exact h b m h3
    · exact h h2

set_option maxRecDepth 100000 in
/-- C33: alice cannot send tokens to the (active) converter; the owner cannot either. -/
example : (ready.own Scenario.conv).owner = some owner ∧
    ((Scenario.run [.call owner Scenario.irc 0 (.transfer Scenario.conv 5 none), .call alice Scenario.irc 0 (.transfer Scenario.conv 5 none)] ready).tok Scenario.irc).bal Scenario.conv = 50000 := by decide +kernel

/-! ### C34 -/

/-- C34. While the converter owns its flexible token nobody, not even its owner, can withdraw connector tokens from it. -/
theorem C34_reserves_locked (hw : Wired w T t R N) (hact : w.active T) (hset : ((w.conv T).connectors a).isSet = true)
    {cv : Int} {dst : Addr} : Fails w s T cv (.withdrawTokens a dst v) := by
  intro orc n x w' h
  cases n with
  | zero => simp [ok_exec_zero] at h
  | succ n =>
    rw [ok_exec_convWithdraw hw.conv] at h
    obtain ⟨_, _, _, t', z, w1, h1, h2, h3, _⟩ := h
    rw [hw.token] at h1; injection h1 with h1; subst h1
    cases n with
    | zero => simp [ok_exec_zero] at h2
    | succ n =>
      have hx : (w.kind t).isOwned := by rw [hw.flex]; simp [Kind.isOwned]
      rw [ok_exec_getOwner (by exact hx)] at h2
      obtain ⟨_, rfl, rfl⟩ := h2
      rcases h3 with h3 | h3
      · have := Val.isAddr_addr.mpr ((active_iff hw).mp hact)
        rw [note_own] at h3; rw [h3] at this; cases this
      · rw [note_conv, note_conv, hset] at h3; cases h3

set_option maxRecDepth 100000 in
/-- C34: the owner of the converter tries. -/
example : ready.active Scenario.conv ∧ ((ready.conv Scenario.conv).connectors Scenario.irc).isSet = true ∧
    (ready.own Scenario.conv).owner = some owner ∧
    Scenario.answer owner Scenario.conv (.withdrawTokens Scenario.irc owner 1) ready = .error (.revert "withdrawing token should be inactive or not a connector token") := by
  refine ⟨(active_iff ready_wired).mpr ready_tokens.2.2.2, ?_⟩
  decide +kernel

/-! ### C31 -/

/-- C31 for what is sold being the flexible token or a connector without virtual balance: if `getReturn` answers `r`, the
conversion of the same amount, if it succeeds next, pays exactly `r`, whatever the minimal return asked for. -/
theorem C31_quote_is_paid (hw : Wired w T t R N) (hN : N ≠ ZERO) (hka : (w.kind a).isToken) (hkb : (w.kind b).isToken)
    (hreal : a = t ∨ ((w.conv T).connectors a).isVirtual = false) {cv r fee : Int} {w1 : World}
    (hq : exec orc n s T cv (.getReturn a b v) w = .ok (.ret r fee, w1)) (hd : Asks d b m)
    (h : exec orc' n' N a 0 (.transfer T v (some d)) w1 = .ok (x, w')) :
    ((w.pay a N T v).traded T t a b N v r).Alike w' ∧ (w'.tok b).bal N = (w.tok b).bal N + r := by
  obtain ⟨_, hown, _, c, hc, hle, hx, hw1⟩ := getReturn_effect hw hka hkb hq
  injection hx with hr hf
  have hal : w.Alike w1 := by rw [hw1]; exact (World.Alike.refl w).note.trans alike_readQuote
  obtain ⟨_, _, _, r', hcv, hal'⟩ := hop_effect (hal.wired hw) hN (by rw [hal.own]; exact hown) (by rw [hal.kind]; exact hka)
    (by rw [hal.kind]; exact hkb) hd h
  have hal'' : ((w.pay a N T v).traded T t a b N v r').Alike w' := hal.pay.traded.trans hal'
  obtain ⟨c', hc', hr', _⟩ := hcv.curve
  have hab : a ≠ b := hcv.tradable.1
  rw [hal.pay.curve, curve_pay hw hab hreal, hc] at hc'
  injection hc' with hc'; subst hc'
  have e : r' = r := by
    rw [hr', hr, hal.pay.afterFee, hal.pay.feeSteps]; rfl
  subst e
  refine ⟨hal'', ?_⟩
  have hNT : N ≠ T := by rintro rfl; have h1 := hw.net; rw [hw.conv] at h1; cases h1
  rw [hal''.tok]
  unfold World.traded
  split
  · rename_i h1; subst h1
    simp [World.mint, World.pay, virt_tok, setTok_tok, hab.symm, gain]
  · split
    · rename_i h1 h2; subst h2
      simp [World.mint, World.pay, virt_tok, setTok_tok, hab.symm, moveBal, hNT]
    · simp [World.pay, virt_tok, setTok_tok, hab.symm, moveBal, hNT]

/-- C31. And given that quote, the conversion does succeed - with a budget of calls that suffices - exactly if conversions are
enabled, the network holds the amount and may transfer it, the minimal return is positive and not above the quote, and the
payment is possible. -/
theorem C31_when (hw : Wired w T t R N) (hN : N ≠ ZERO) (hka : (w.kind a).isToken) (hkb : (w.kind b).isToken)
    (hreal : a = t ∨ ((w.conv T).connectors a).isVirtual = false) {cv r fee : Int} {w1 : World}
    (hq : exec orc n s T cv (.getReturn a b v) w = .ok (.ret r fee, w1)) (hd : Asks d b m) :
    (∃ x w', exec orc' (n' + 4) N a 0 (.transfer T v (some d)) w = .ok (x, w')) ↔
    (w.conv T).enabled = true ∧ 0 < v ∧ v ≤ (w.tok a).bal N ∧ (w.kind a = .flex → (w.flex a).transferable = true) ∧
      0 < m ∧ m ≤ r ∧ (w.pay a N T v).payable T t a b v r := by
  obtain ⟨_, hown, htr, c, hc, hle, hx, hw1⟩ := getReturn_effect hw hka hkb hq
  injection hx with hr hf
  have hab : a ≠ b := htr.1
  have hcp := curve_pay (v := v) hw hab hreal
  simp only [ok_exec_hop (n := n' + 1) hw hN hown hka hkb hd]
  constructor
  · rintro ⟨x, w', _, h1, h2, h3, r', fee', h4, _, _, _⟩
    obtain ⟨c', hc', hr', _⟩ := h4.curve
    rw [hcp, hc] at hc'; injection hc' with hc'; subst hc'
    have e : r' = r := by rw [hr', hr]; rfl
    subst e
    exact ⟨h4.enabled, h1, h2, h3, h4.min, h4.enough, h4.payable⟩
  · rintro ⟨h1, h2, h3, h4, h5, h6, h7⟩
    refine ⟨_, _, rfl, h2, h3, h4, r, fee, ⟨h1, hown, h5, htr, ⟨c, by rw [hcp]; exact hc, hr, by rw [hr]; exact hle⟩, h6, h7⟩, by simp, ?_, rfl⟩
    rw [hcp, hc, hr, hf]; congr 1; omega

set_option maxRecDepth 100000 in
/-- C31: 100 of the IRC token are quoted 48 flexible tokens, and 48 are paid. -/
example : Scenario.answer alice Scenario.conv (.getReturn Scenario.irc Scenario.flex 100) ready = .ok (.ret 48 1) ∧
    (ready.tok Scenario.flex).bal alice = 10000 ∧
    ((Scenario.run [Scenario.trade [Scenario.irc, Scenario.flex, Scenario.flex] 100 1] ready).tok Scenario.flex).bal alice = 10048 := by
  decide +kernel

/-- C31 does not hold of connectors with a virtual balance: there is a reachable ledger and a connector where 500 are quoted
310 flexible tokens but 313 are paid, and for a conversion between connectors 615 are quoted but 623 are paid.
(The deposit is subtracted from the virtual balance although it was not added to it.) -/
theorem C31_virtual_quote_is_not_paid : ∃ w T a b t, Reachable w ∧ w.kind T = .conv ∧ ((w.conv T).connectors a).isVirtual = true ∧
    Scenario.answer alice T (.getReturn a t 500) w = .ok (.ret 310 1) ∧
    ((Scenario.run [Scenario.trade [a, t, t] 500 1] w).tok t).bal alice = (w.tok t).bal alice + 313 ∧
    Scenario.answer alice T (.getReturn a b 500) w = .ok (.ret 615 2) ∧
    ((Scenario.run [Scenario.trade [a, t, b] 500 1] w).tok b).bal alice = (w.tok b).bal alice + 623 := by
  refine ⟨virtualLedger, Scenario.conv, Scenario.icxt, Scenario.irc, Scenario.flex, Scenario.run_reachable _ ready_reachable, ?_⟩
  set_option maxRecDepth 100000 in decide +kernel

end
end Verif
