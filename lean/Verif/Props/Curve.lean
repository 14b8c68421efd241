import Verif.Proofs.FormulaCurve
import Verif.Proofs.FormulaLarge
import Verif.Props.Formula
import Verif.Spec.Curve
import Verif.Proofs.Pool
/-!
Properties C45-C47, C51: the integer formula against the exact curve of its documentation (`Verif.Spec.Curve`).
Every theorem is followed by concrete cases.
-/
set_option autoImplicit false
namespace Verif.Formula
open Real

section
variable {s b w d r p fb fw tb tw a q : Int}

theorem purchase_input (h : calculatePurchaseReturn s b w d = .ok r) : 0 < s ∧ 0 < b ∧ ValidWeight w := by
  by_contra hn; rw [purchase_invalid hn] at h; cases h

theorem sale_input (h : calculateSaleReturn s b w d = .ok r) : 0 < s ∧ 0 < b ∧ ValidWeight w ∧ d ≤ s := by
  by_contra hn; rw [sale_invalid hn] at h; cases h

theorem cross_input (h : calculateCrossConnectorReturn fb fw tb tw a = .ok r) : 0 < fb ∧ ValidWeight fw ∧ 0 < tb ∧ ValidWeight tw := by
  by_contra hn; rw [cross_invalid hn] at h; cases h

theorem eps_eq : (5 : ℝ) / 2 ^ 127 = eps := by unfold eps Fr; rfl

theorem ratio_eq (hb : 0 < b) : (1 + (d : ℝ) / b) = ((d + b : Int) : ℝ) / b := by
  have hb' : (0 : ℝ) < b := by exact_mod_cast hb
  push_cast; field_simp; ring

theorem ratio_pos (hb : 0 < b) (hd : 0 ≤ d) : (0 : ℝ) < ((d + b : Int) : ℝ) / b := by
  have hb' : (0 : ℝ) < b := by exact_mod_cast hb
  have : (0 : ℝ) < ((d + b : Int) : ℝ) := by exact_mod_cast (by omega : 0 < d + b)
  positivity

theorem rest_eq (hs : 0 < s) : (1 - (d : ℝ) / s) = ((s : ℝ) / ((s - d : Int) : ℝ))⁻¹ := by
  have hs' : (0 : ℝ) < s := by exact_mod_cast hs
  rw [inv_div]; push_cast; field_simp

theorem rest_pos (hs : 0 < s) (hd : d < s) : (0 : ℝ) < (s : ℝ) / ((s - d : Int) : ℝ) := by
  have hs' : (0 : ℝ) < s := by exact_mod_cast hs
  have : (0 : ℝ) < ((s - d : Int) : ℝ) := by exact_mod_cast (by omega : 0 < s - d)
  positivity

theorem rpow_exp {x α : ℝ} (hx : 0 < x) : x ^ α = exp (α * log x) := by
  rw [Real.rpow_def_of_pos hx, mul_comm]

theorem rpow_exp' {x α e : ℝ} (hx : 0 < x) : (x * exp e) ^ α = exp (α * (log x + e)) := by
  rw [rpow_exp (mul_pos hx (Real.exp_pos _)), Real.log_mul hx.ne' (Real.exp_pos _).ne', Real.log_exp]

/-! ### C45: the formula never overpays -/

/-- A purchase never returns more than the exact curve does for a deposit ratio larger by a factor `e^(5/2^127)`. -/
theorem C45_purchase (hd : 0 ≤ d) (h : calculatePurchaseReturn s b w d = .ok r) :
    (r : ℝ) ≤ s * (((1 + (d : ℝ) / b) * exp (5 / 2 ^ 127)) ^ ((w : ℝ) / 1000000) - 1) := by
  obtain ⟨hs, hb, hw⟩ := purchase_input h
  have := purchase_up hs hb hw hd h
  rw [ratio_eq hb, eps_eq, rpow_exp' (ratio_pos hb hd), mul_sub, mul_one]
  linarith

/-- A sale never returns more than the exact curve does when the part of the supply that stays is smaller by a factor
`e^(-5/2^127)`. -/
theorem C45_sale (hd : 0 ≤ d) (h : calculateSaleReturn s b w d = .ok r) :
    (r : ℝ) ≤ b * (1 - ((1 - (d : ℝ) / s) * exp (-(5 / 2 ^ 127))) ^ (1 / ((w : ℝ) / 1000000))) := by
  obtain ⟨hs, hb, hw, hds⟩ := sale_input h
  obtain ⟨hw1, hw2⟩ := weight_real hw
  have hs' : (0 : ℝ) < s := by exact_mod_cast hs
  have e1 : (1 : ℝ) / ((w : ℝ) / 1000000) = 1000000 / w := by rw [one_div, inv_div]
  by_cases hall : d = s
  · subst hall
    rw [div_self hs'.ne', sub_self, zero_mul, Real.zero_rpow (by rw [e1]; positivity), sub_zero, mul_one]
    rw [sale_valid hs hb hw hds, if_neg (by omega), if_pos rfl] at h
    injection h with h; rw [h]
  have := sale_up hs hb hw hd (by omega) h
  have hp := rest_pos hs (show d < s by omega)
  rw [e1, rest_eq hs, eps_eq, rpow_exp' (inv_pos.mpr hp), Real.log_inv, ← neg_add, mul_neg, mul_sub, mul_one]
  linarith

/-- A cross conversion never returns more than the exact curve does when the ratio of the source balance before and
after is smaller by a factor `e^(-5/2^127)`. -/
theorem C45_cross (ha : 0 ≤ a) (h : calculateCrossConnectorReturn fb fw tb tw a = .ok r) :
    (r : ℝ) ≤ tb * (1 - ((fb : ℝ) / (fb + a) * exp (-(5 / 2 ^ 127))) ^ ((fw : ℝ) / tw)) := by
  obtain ⟨hf, hfw, ht, htw⟩ := cross_input h
  have hf' : (0 : ℝ) < fb := by exact_mod_cast hf
  have hfa : (0 : ℝ) < ((fb + a : Int) : ℝ) := by exact_mod_cast (by omega : 0 < fb + a)
  have := cross_up hf hfw ht htw ha h
  have e : (fb : ℝ) / (fb + a) = (((fb + a : Int) : ℝ) / fb)⁻¹ := by rw [inv_div]; push_cast; rfl
  rw [e, eps_eq, rpow_exp' (inv_pos.mpr (by positivity)), Real.log_inv, ← neg_add, mul_neg, mul_sub, mul_one]
  linarith

theorem exp_small {x : ℝ} (h0 : 0 ≤ x) (h1 : x ≤ 1 / 10) : exp x ≤ 1 + 11 / 10 * x := by
  have h := Real.abs_exp_sub_one_sub_id_le (x := x) (by rw [abs_of_nonneg h0]; linarith)
  have := le_abs_self (exp x - 1 - x)
  nlinarith

theorem eps_small : eps ≤ 1 / 10 ^ 37 := by rw [← eps_eq]; norm_num

/-- While the supply after the purchase is at most 2^124, the purchase returns less than one unit above the exact curve. -/
theorem C45_purchase_units (hd : 0 ≤ d) (h : calculatePurchaseReturn s b w d = .ok r)
    (hsize : (s : ℝ) + Curve.purchase s b w d ≤ 2 ^ 124) : (r : ℝ) < Curve.purchase s b w d + 1 := by
  obtain ⟨hs, hb, hw⟩ := purchase_input h
  obtain ⟨hw1, hw2⟩ := weight_real hw
  have hε := eps_pos
  have hε2 := eps_small
  have hs' : (0 : ℝ) < s := by exact_mod_cast hs
  have hu := purchase_up hs hb hw hd h
  unfold Curve.purchase at hsize ⊢
  rw [ratio_eq hb, rpow_exp (ratio_pos hb hd)] at hsize ⊢
  rw [mul_add, Real.exp_add, ← mul_assoc] at hu
  have hE := Real.exp_pos ((w : ℝ) / 1000000 * log (((d + b : Int) : ℝ) / b))
  have h1 : exp ((w : ℝ) / 1000000 * eps) ≤ 1 + 11 / 10 * eps := by
    have h2 : (w : ℝ) / 1000000 * eps ≤ eps := by
      have : (w : ℝ) / 1000000 ≤ 1 := by rw [div_le_one (by norm_num)]; exact hw2
      nlinarith
    exact (Real.exp_le_exp.mpr h2).trans (exp_small hε.le (hε2.trans (by norm_num)))
  have hS : 0 < (s : ℝ) * exp ((w : ℝ) / 1000000 * log (((d + b : Int) : ℝ) / b)) := by positivity
  have h5 := mul_le_mul_of_nonneg_left h1 hS.le
  rw [mul_sub, mul_one] at hsize ⊢
  generalize (s : ℝ) * exp ((w : ℝ) / 1000000 * log (((d + b : Int) : ℝ) / b)) = X at hu hS h5 hsize ⊢
  have h6 : X * (11 / 10 * eps) ≤ 2 ^ 124 * (11 / 10 * eps) := mul_le_mul_of_nonneg_right (by linarith) (by positivity)
  have h7 : (2 : ℝ) ^ 124 * (11 / 10 * eps) < 1 := by rw [← eps_eq]; norm_num
  linarith

/-- A payout whose exact part kept is `b * q`, computed with a slack `e^(-β*eps)`. -/
theorem kept_units {β B X : ℝ} (hβ0 : 0 ≤ β) (hβ : β ≤ 1000000) (hB : B ≤ 2 ^ 104) (hX0 : 0 ≤ X) (hX : X ≤ B) : X - 1 < X * exp (-(β * eps)) := by
  have hε := eps_pos
  have h1 := Real.add_one_le_exp (-(β * eps))
  have h2 := mul_le_mul_of_nonneg_left h1 hX0
  have h3 : X * (β * eps) ≤ 2 ^ 104 * (1000000 * eps) :=
    mul_le_mul (hX.trans hB) (mul_le_mul_of_nonneg_right hβ hε.le) (by positivity) (by positivity)
  have h4 : (2 : ℝ) ^ 104 * (1000000 * eps) < 1 := by rw [← eps_eq]; norm_num
  nlinarith

/-- While the balance is at most 2^104, a sale returns less than one unit above the exact curve. -/
theorem C45_sale_units (hd : 0 ≤ d) (hsize : b ≤ 2 ^ 104) (h : calculateSaleReturn s b w d = .ok r) :
    (r : ℝ) < Curve.sale s b w d + 1 := by
  obtain ⟨hs, hb, hw, hds⟩ := sale_input h
  obtain ⟨hw1, hw2⟩ := weight_real hw
  have hs' : (0 : ℝ) < s := by exact_mod_cast hs
  have hb' : (0 : ℝ) < b := by exact_mod_cast hb
  have e1 : (1 : ℝ) / ((w : ℝ) / 1000000) = 1000000 / w := by rw [one_div, inv_div]
  have hβ0 : (0 : ℝ) ≤ 1000000 / w := by positivity
  have hβ1 : (1000000 : ℝ) / w ≤ 1000000 := by rw [div_le_iff₀ (by linarith)]; nlinarith
  unfold Curve.sale
  by_cases hall : d = s
  · have := C45_sale hd h
    subst hall
    rw [div_self hs'.ne', sub_self, zero_mul, Real.zero_rpow (by rw [e1]; positivity)] at this
    rw [div_self hs'.ne', sub_self, Real.zero_rpow (by rw [e1]; positivity)]
    linarith
  have hu := sale_up hs hb hw hd (by omega) h
  have hp := rest_pos hs (show d < s by omega)
  have hL := ratio_log_nonneg (show 0 < s - d by omega) (show s - d ≤ s by omega)
  rw [e1, rest_eq hs, rpow_exp (inv_pos.mpr hp), Real.log_inv, mul_neg, mul_sub, mul_one]
  rw [mul_add, neg_add, Real.exp_add, ← mul_assoc] at hu
  have hX : (b : ℝ) * exp (-(1000000 / (w : ℝ) * log (s / (s - d : Int)))) ≤ b := by
    have : exp (-(1000000 / (w : ℝ) * log (s / (s - d : Int)))) ≤ 1 := Real.exp_le_one_iff.mpr (by rw [neg_nonpos]; positivity)
    nlinarith
  have := kept_units hβ0 hβ1 (show (b : ℝ) ≤ 2 ^ 104 by exact_mod_cast hsize) (by positivity) hX
  linarith

/-- While the target balance is at most 2^104, a cross conversion returns less than one unit above the exact curve. -/
theorem C45_cross_units (ha : 0 ≤ a) (hsize : tb ≤ 2 ^ 104) (h : calculateCrossConnectorReturn fb fw tb tw a = .ok r) :
    (r : ℝ) < Curve.cross fb fw tb tw a + 1 := by
  obtain ⟨hf, hfw, ht, htw⟩ := cross_input h
  obtain ⟨hw1, hw2⟩ := weight_real hfw
  obtain ⟨hw3, hw4⟩ := weight_real htw
  have hf' : (0 : ℝ) < fb := by exact_mod_cast hf
  have ht' : (0 : ℝ) < tb := by exact_mod_cast ht
  have hfa : (0 : ℝ) < ((fb + a : Int) : ℝ) := by exact_mod_cast (by omega : 0 < fb + a)
  have hβ0 : (0 : ℝ) ≤ (fw : ℝ) / tw := by positivity
  have hβ1 : (fw : ℝ) / tw ≤ 1000000 := by rw [div_le_iff₀ (by linarith)]; nlinarith
  have hu := cross_up hf hfw ht htw ha h
  have hL := ratio_log_nonneg hf (show fb ≤ fb + a by omega)
  have e : (fb : ℝ) / (fb + a) = (((fb + a : Int) : ℝ) / fb)⁻¹ := by rw [inv_div]; push_cast; rfl
  unfold Curve.cross
  rw [e, rpow_exp (inv_pos.mpr (by positivity)), Real.log_inv, mul_neg, mul_sub, mul_one]
  rw [mul_add, neg_add, Real.exp_add, ← mul_assoc] at hu
  have hX : (tb : ℝ) * exp (-((fw : ℝ) / tw * log ((fb + a : Int) / fb))) ≤ tb := by
    have : exp (-((fw : ℝ) / tw * log ((fb + a : Int) / fb))) ≤ 1 := Real.exp_le_one_iff.mpr (by rw [neg_nonpos]; positivity)
    nlinarith
  have := kept_units hβ0 hβ1 (show (tb : ℝ) ≤ 2 ^ 104 by exact_mod_cast hsize) (by positivity) hX
  linarith

/-- The slack is real: with a supply of 2^140 a purchase can return more than the exact curve. -/
theorem C45_overpays : ∃ s b w d r : Int, 0 ≤ d ∧ calculatePurchaseReturn s b w d = .ok r ∧ Curve.purchase s b w d < r := by
  refine ⟨2 ^ 140, 2 ^ 127, 500000, 10973163566927217122478049710991266984, 44243852648163429053529801946278848520192, by decide, by decide +kernel, ?_⟩
  unfold Curve.purchase
  have e : ((500000 : Int) : ℝ) / 1000000 = 1 / 2 := by norm_num
  rw [e, ← Real.sqrt_eq_rpow]
  have h : √(1 + ((10973163566927217122478049710991266984 : Int) : ℝ) / ((2 ^ 127 : Int) : ℝ)) <
      1 + ((44243852648163429053529801946278848520192 : Int) : ℝ) / ((2 ^ 140 : Int) : ℝ) := by
    rw [Real.sqrt_lt' (by positivity)]
    norm_num
  have h2 : (0 : ℝ) < ((2 ^ 140 : Int) : ℝ) := by positivity
  have h3 := mul_lt_mul_of_pos_left h h2
  rw [mul_add ((2 ^ 140 : Int) : ℝ), mul_div_cancel₀ _ h2.ne'] at h3
  rw [mul_sub, mul_one]
  linarith

/-! Concrete cases: an ordinary purchase, sale and cross conversion; selling the whole supply. -/

/-- A bound for concrete cases. -/
theorem purchase_bound {s b w d : ℝ} (hs : 0 ≤ s) (hb : 0 < b) (hd : 0 ≤ d) (hw1 : w ≤ 1000000) :
    s + Curve.purchase s b w d ≤ s * (1 + d / b) := by
  unfold Curve.purchase
  have h1 : (1 : ℝ) ≤ 1 + d / b := by have : 0 ≤ d / b := by positivity
                                      linarith
  have h2 := Real.rpow_le_rpow_of_exponent_le h1 (show w / 1000000 ≤ 1 by rw [div_le_one (by norm_num)]; exact hw1)
  rw [Real.rpow_one] at h2
  nlinarith

example : ((2411 : Int) : ℝ) < Curve.purchase (100000 : Int) (50000 : Int) (250000 : Int) (5000 : Int) + 1 :=
  C45_purchase_units (s := 100000) (b := 50000) (w := 250000) (d := 5000) (by decide) (by decide +kernel)
    ((purchase_bound (by norm_num) (by norm_num) (by norm_num) (by norm_num)).trans (by norm_num))

example : ((9274 : Int) : ℝ) < Curve.sale (100000 : Int) (50000 : Int) (250000 : Int) (5000 : Int) + 1 :=
  C45_sale_units (s := 100000) (b := 50000) (w := 250000) (d := 5000) (by decide) (by decide) (by decide +kernel)

example : ((3722 : Int) : ℝ) < Curve.cross (50000 : Int) (250000 : Int) (80000 : Int) (500000 : Int) (5000 : Int) + 1 :=
  C45_cross_units (fb := 50000) (fw := 250000) (tb := 80000) (tw := 500000) (a := 5000) (by decide) (by decide) (by decide +kernel)

example : calculatePurchaseReturn 100000 50000 250000 5000 = .ok 2411 ∧ calculateSaleReturn 100000 50000 250000 5000 = .ok 9274 ∧
    calculateSaleReturn 100000 50000 250000 100000 = .ok 50000 ∧
    calculateCrossConnectorReturn 50000 250000 80000 500000 5000 = .ok 3722 := by decide +kernel

/-! ### C46: no profit from trading back and forth -/

/-- Buying and selling everything bought returns at most the deposit (balances up to 2^104). -/
theorem C46_buy_sell (hd : 0 ≤ d) (hsize : b ≤ 2 ^ 104) (h1 : calculatePurchaseReturn s b w d = .ok r)
    (h2 : calculateSaleReturn (s + r) (b + d) w r = .ok p) : p ≤ d := by
  obtain ⟨hs, hb, hw⟩ := purchase_input h1
  obtain ⟨hw1, hw2⟩ := weight_real hw
  have hε := eps_pos
  have hs' : (0 : ℝ) < s := by exact_mod_cast hs
  have hb' : (0 : ℝ) < b := by exact_mod_cast hb
  have hr : 0 ≤ r := C44_purchase hd h1
  have hu1 := purchase_up hs hb hw hd h1
  have hu2 := sale_up (by omega) (by omega) hw hr (by omega) h2
  have e : s + r - r = s := by omega
  rw [e] at hu2
  have hsr : (0 : ℝ) < ((s + r : Int) : ℝ) := by exact_mod_cast (by omega : 0 < s + r)
  have hdb := ratio_pos hb hd
  have hL : 1000000 / (w : ℝ) * log (((s + r : Int) : ℝ) / s) ≤ log (((d + b : Int) : ℝ) / b) + eps := by
    have h3 : ((s + r : Int) : ℝ) / s ≤ exp ((w : ℝ) / 1000000 * (log ((d + b : Int) / b) + eps)) := by
      rw [div_le_iff₀ hs', mul_comm]; push_cast at hu1 ⊢; exact hu1
    have h4 := Real.log_le_log (by positivity) h3
    rw [Real.log_exp] at h4
    calc 1000000 / (w : ℝ) * log (((s + r : Int) : ℝ) / s) ≤ 1000000 / (w : ℝ) * ((w : ℝ) / 1000000 * (log ((d + b : Int) / b) + eps)) :=
          mul_le_mul_of_nonneg_left h4 (by positivity)
      _ = _ := by field_simp
  have h5 : b * (1 - 1000001 * eps) ≤ ((b + d : Int) : ℝ) - p := by
    refine le_trans ?_ hu2
    have h6 : exp (-(log (((d + b : Int) : ℝ) / b) + 1000001 * eps)) ≤ exp (-(1000000 / (w : ℝ) * (log (((s + r : Int) : ℝ) / s) + eps))) := by
      refine Real.exp_le_exp.mpr (neg_le_neg ?_)
      have hβ1 : (1000000 : ℝ) / w ≤ 1000000 := by rw [div_le_iff₀ (by linarith)]; nlinarith
      have := mul_le_mul_of_nonneg_right hβ1 hε.le
      rw [mul_add]; linarith
    have hbd : (0 : ℝ) < ((b + d : Int) : ℝ) := by exact_mod_cast (by omega : 0 < b + d)
    refine le_trans ?_ (mul_le_mul_of_nonneg_left h6 hbd.le)
    rw [neg_add, Real.exp_add, ← Real.log_inv, Real.exp_log (inv_pos.mpr hdb), ← mul_assoc, inv_div]
    have e2 : ((b + d : Int) : ℝ) * ((b : ℝ) / ((d + b : Int) : ℝ)) = b := by
      rw [Int.add_comm d b]; field_simp
    rw [e2]
    refine mul_le_mul_of_nonneg_left ?_ hb'.le
    have := Real.add_one_le_exp (-(1000001 * eps))
    linarith
  have h6 : (b : ℝ) * (1000001 * eps) < 1 := by
    have h7 : (b : ℝ) ≤ 2 ^ 104 := by exact_mod_cast hsize
    have h8 : (b : ℝ) * (1000001 * eps) ≤ 2 ^ 104 * (1000001 * eps) := mul_le_mul_of_nonneg_right h7 (by positivity)
    have h9 : (2 : ℝ) ^ 104 * (1000001 * eps) < 1 := by rw [← eps_eq]; norm_num
    linarith
  have h7 : (p : ℝ) < ((d + 1 : Int) : ℝ) := by push_cast at h5 ⊢; nlinarith
  have : p < d + 1 := by exact_mod_cast h7
  omega

/-- Selling and buying back with everything received returns at most what was sold (supplies up to 2^123). -/
theorem C46_sell_buy (hd : 0 ≤ d) (hsize : s ≤ 2 ^ 123) (h1 : calculateSaleReturn s b w d = .ok p)
    (h2 : calculatePurchaseReturn (s - d) (b - p) w p = .ok r) : r ≤ d := by
  obtain ⟨hs, hb, hw, hds⟩ := sale_input h1
  obtain ⟨hs2, hb2, _⟩ := purchase_input h2
  obtain ⟨hw1, hw2⟩ := weight_real hw
  have hε := eps_pos
  have hε2 := eps_small
  have hs' : (0 : ℝ) < s := by exact_mod_cast hs
  have hb' : (0 : ℝ) < b := by exact_mod_cast hb
  have hsd' : (0 : ℝ) < ((s - d : Int) : ℝ) := by exact_mod_cast hs2
  have hbp' : (0 : ℝ) < ((b - p : Int) : ℝ) := by exact_mod_cast hb2
  have hp : 0 ≤ p := (C44_sale hd h1).1
  have hu1 := sale_up hs hb hw hd (by omega) h1
  have hu2 := purchase_up hs2 hb2 hw hp h2
  have e : p + (b - p) = b := by omega
  rw [e] at hu2
  have hL : log ((b : ℝ) / ((b - p : Int) : ℝ)) ≤ 1000000 / (w : ℝ) * (log (s / (s - d : Int)) + eps) := by
    have h3 : exp (-(1000000 / (w : ℝ) * (log (s / (s - d : Int)) + eps))) ≤ ((b - p : Int) : ℝ) / b := by
      rw [le_div_iff₀ hb', mul_comm]; push_cast at hu1 ⊢; exact hu1
    have h4 := Real.log_le_log (Real.exp_pos _) h3
    rw [Real.log_exp] at h4
    rw [← inv_div, Real.log_inv]
    linarith
  have h5 : ((s - d : Int) : ℝ) + r ≤ s * (1 + 11 / 10 * (2 * eps)) := by
    refine hu2.trans ?_
    have h6 : exp ((w : ℝ) / 1000000 * (log (b / (b - p : Int)) + eps)) ≤ exp (log ((s : ℝ) / ((s - d : Int) : ℝ)) + 2 * eps) := by
      refine Real.exp_le_exp.mpr ?_
      have hα1 : (w : ℝ) / 1000000 ≤ 1 := by rw [div_le_one (by norm_num)]; exact hw2
      have h7 := mul_le_mul_of_nonneg_left hL (show 0 ≤ (w : ℝ) / 1000000 by positivity)
      have h8 : (w : ℝ) / 1000000 * (1000000 / (w : ℝ) * (log (s / (s - d : Int)) + eps)) = log (s / (s - d : Int)) + eps := by field_simp
      have h9 := mul_le_mul_of_nonneg_right hα1 hε.le
      rw [mul_add]; linarith
    refine (mul_le_mul_of_nonneg_left h6 hsd'.le).trans ?_
    rw [Real.exp_add, Real.exp_log (by positivity), ← mul_assoc, mul_div_cancel₀ _ hsd'.ne']
    exact mul_le_mul_of_nonneg_left (exp_small (by positivity) (by linarith [show (1 : ℝ) / 10 ^ 37 ≤ 1 / 20 by norm_num])) hs'.le
  have h6 : (s : ℝ) * (11 / 10 * (2 * eps)) < 1 := by
    have h7 : (s : ℝ) ≤ 2 ^ 123 := by exact_mod_cast hsize
    have h8 : (s : ℝ) * (11 / 10 * (2 * eps)) ≤ 2 ^ 123 * (11 / 10 * (2 * eps)) := mul_le_mul_of_nonneg_right h7 (by positivity)
    have h9 : (2 : ℝ) ^ 123 * (11 / 10 * (2 * eps)) < 1 := by rw [← eps_eq]; norm_num
    linarith
  have h7 : (r : ℝ) < ((d + 1 : Int) : ℝ) := by push_cast at h5 ⊢; nlinarith
  have : r < d + 1 := by exact_mod_cast h7
  omega

/-- Converting across two connectors and back returns at most the amount put in (source balances up to 2^104). -/
theorem C46_cross_back (ha : 0 ≤ a) (hsize : fb ≤ 2 ^ 104) (h1 : calculateCrossConnectorReturn fb fw tb tw a = .ok p)
    (h2 : calculateCrossConnectorReturn (tb - p) tw (fb + a) fw p = .ok q) : q ≤ a := by
  obtain ⟨hf, hfw, ht, htw⟩ := cross_input h1
  obtain ⟨htp, _, _, _⟩ := cross_input h2
  obtain ⟨hw1, hw2⟩ := weight_real hfw
  obtain ⟨hw3, hw4⟩ := weight_real htw
  have hε := eps_pos
  have hf' : (0 : ℝ) < fb := by exact_mod_cast hf
  have ht' : (0 : ℝ) < tb := by exact_mod_cast ht
  have hfa : (0 : ℝ) < ((fb + a : Int) : ℝ) := by exact_mod_cast (by omega : 0 < fb + a)
  have htp' : (0 : ℝ) < ((tb - p : Int) : ℝ) := by exact_mod_cast htp
  have hp : 0 ≤ p := (C44_cross ha h1).1
  have hu1 := cross_up hf hfw ht htw ha h1
  have hu2 := cross_up htp htw (show 0 < fb + a by omega) hfw hp h2
  have e : tb - p + p = tb := by omega
  rw [e] at hu2
  have hL : log ((tb : ℝ) / ((tb - p : Int) : ℝ)) ≤ (fw : ℝ) / tw * (log (((fb + a : Int) : ℝ) / fb) + eps) := by
    have h3 : exp (-((fw : ℝ) / tw * (log (((fb + a : Int) : ℝ) / fb) + eps))) ≤ ((tb - p : Int) : ℝ) / tb := by
      rw [le_div_iff₀ ht', mul_comm]; push_cast at hu1 ⊢; exact hu1
    have h4 := Real.log_le_log (Real.exp_pos _) h3
    rw [Real.log_exp] at h4
    rw [← inv_div, Real.log_inv]
    linarith
  have h5 : fb * (1 - 1000001 * eps) ≤ ((fb + a : Int) : ℝ) - q := by
    refine le_trans ?_ hu2
    have h6 : exp (-(log (((fb + a : Int) : ℝ) / fb) + 1000001 * eps)) ≤ exp (-((tw : ℝ) / fw * (log (tb / (tb - p : Int)) + eps))) := by
      refine Real.exp_le_exp.mpr (neg_le_neg ?_)
      have hβ1 : (tw : ℝ) / fw ≤ 1000000 := by rw [div_le_iff₀ (by linarith)]; nlinarith
      have h7 := mul_le_mul_of_nonneg_right hβ1 hε.le
      have h8 := mul_le_mul_of_nonneg_left hL (show 0 ≤ (tw : ℝ) / fw by positivity)
      have h9 : (tw : ℝ) / fw * ((fw : ℝ) / tw * (log (((fb + a : Int) : ℝ) / fb) + eps)) = log (((fb + a : Int) : ℝ) / fb) + eps := by field_simp
      rw [mul_add]; linarith
    refine le_trans ?_ (mul_le_mul_of_nonneg_left h6 hfa.le)
    rw [neg_add, Real.exp_add, ← Real.log_inv, Real.exp_log (by positivity), ← mul_assoc, inv_div, mul_div_cancel₀ _ hfa.ne']
    refine mul_le_mul_of_nonneg_left ?_ hf'.le
    have := Real.add_one_le_exp (-(1000001 * eps))
    linarith
  have h6 : (fb : ℝ) * (1000001 * eps) < 1 := by
    have h7 : (fb : ℝ) ≤ 2 ^ 104 := by exact_mod_cast hsize
    have h8 : (fb : ℝ) * (1000001 * eps) ≤ 2 ^ 104 * (1000001 * eps) := mul_le_mul_of_nonneg_right h7 (by positivity)
    have h9 : (2 : ℝ) ^ 104 * (1000001 * eps) < 1 := by rw [← eps_eq]; norm_num
    linarith
  have h7 : (q : ℝ) < ((a + 1 : Int) : ℝ) := by push_cast at h5 ⊢; nlinarith
  have : q < a + 1 := by exact_mod_cast h7
  omega

/-! Concrete cases: there and back returns one unit less, or exactly the amount. -/

example : calculatePurchaseReturn 100000 50000 250000 5000 = .ok 2411 ∧
    calculateSaleReturn (100000 + 2411) (50000 + 5000) 250000 2411 = .ok 4999 := by decide +kernel
example : calculateSaleReturn 100000 50000 250000 5000 = .ok 9274 ∧
    calculatePurchaseReturn (100000 - 5000) (50000 - 9274) 250000 9274 = .ok 4999 := by decide +kernel
example : calculateCrossConnectorReturn 50000 250000 80000 500000 5000 = .ok 3722 ∧
    calculateCrossConnectorReturn (80000 - 3722) 500000 (50000 + 5000) 250000 3722 = .ok 4998 := by decide +kernel

/-- However many trades of whatever kind, in whatever order and by whomever: the value of the pool falls by at most a
factor `e^(-5/2^127)` per trade. -/
theorem C46_value {ι : Type} [DecidableEq ι] [Fintype ι] {weight : ι → Int} {n : Nat} {P Q : Curve.Pool ι} (hw : ∀ i, 1 ≤ weight i)
    (hS : 0 < P.supply) (hB : ∀ i, 0 < P.balance i) (h : Curve.Trades weight n P Q) :
    P.value weight * exp (-(n * (5 / 2 ^ 127))) ≤ Q.value weight := by
  obtain ⟨⟨hS', hB'⟩, hv⟩ := h.value hw ⟨hS, hB⟩
  have key : ∀ R : Curve.Pool ι, 0 < R.supply → (∀ i, 0 < R.balance i) → 0 < R.value weight ∧ 1000000 * log (R.value weight) = R.logValue weight := by
    intro R hS hB
    have hS' : (0 : ℝ) < R.supply := by exact_mod_cast hS
    have hB' : ∀ i, (0 : ℝ) < R.balance i := fun i => by exact_mod_cast hB i
    have hp : ∀ i, (0 : ℝ) < (R.balance i : ℝ) ^ ((weight i : ℝ) / 1000000) := fun i => Real.rpow_pos_of_pos (hB' i) _
    have hp' : (0 : ℝ) < ∏ i, (R.balance i : ℝ) ^ ((weight i : ℝ) / 1000000) := Finset.prod_pos fun i _ => hp i
    refine ⟨div_pos hp' hS', ?_⟩
    unfold Curve.Pool.value Curve.Pool.logValue
    rw [Real.log_div hp'.ne' hS'.ne', Real.log_prod (fun i _ => (hp i).ne'), mul_sub, Finset.mul_sum]
    congr 1
    refine Finset.sum_congr rfl fun i _ => ?_
    rw [Real.log_rpow (hB' i)]
    field_simp
  obtain ⟨p1, p2⟩ := key P hS hB
  obtain ⟨q1, q2⟩ := key Q hS' hB'
  rw [← Real.log_le_log_iff (by positivity) q1, Real.log_mul p1.ne' (Real.exp_pos _).ne', Real.log_exp, eps_eq]
  linarith

/-- No sequence of `n` trades takes anything out of connector `i` without something being paid for it: if afterwards no
other connector holds more than before and the supply is not smaller, connector `i` holds at least what it held (as
long as its balance times `n` is at most 2^104). -/
theorem C46_no_free_balance {ι : Type} [DecidableEq ι] [Fintype ι] {weight : ι → Int} {n : Nat} {P Q : Curve.Pool ι} {i : ι}
    (hw : ∀ i, 1 ≤ weight i) (hS : 0 < P.supply) (hB : ∀ i, 0 < P.balance i) (h : Curve.Trades weight n P Q)
    (hsupply : P.supply ≤ Q.supply) (hothers : ∀ j, j ≠ i → Q.balance j ≤ P.balance j) (hsize : P.balance i * n ≤ 2 ^ 104) :
    P.balance i ≤ Q.balance i := by
  obtain ⟨⟨hS', hB'⟩, hv⟩ := h.value hw ⟨hS, hB⟩
  have hε := eps_pos
  unfold Curve.Pool.logValue at hv
  rw [← Finset.add_sum_erase Finset.univ (fun i => (weight i : ℝ) * log (P.balance i)) (Finset.mem_univ i),
    ← Finset.add_sum_erase Finset.univ (fun i => (weight i : ℝ) * log (Q.balance i)) (Finset.mem_univ i)] at hv
  have h1 : ∑ j ∈ Finset.univ.erase i, (weight j : ℝ) * log (Q.balance j) ≤ ∑ j ∈ Finset.univ.erase i, (weight j : ℝ) * log (P.balance j) := by
    refine Finset.sum_le_sum fun j hj => mul_le_mul_of_nonneg_left (Curve.log_mono (hB' j) (hothers j (Finset.ne_of_mem_erase hj))) ?_
    have := hw j; exact_mod_cast (by omega : 0 ≤ weight j)
  have h2 := Curve.log_mono hS hsupply
  have hwi : (1 : ℝ) ≤ weight i := by exact_mod_cast hw i
  have h3 : (weight i : ℝ) * (log (P.balance i) - log (Q.balance i)) ≤ n * (1000000 * eps) := by linarith
  have h4 : log (P.balance i) - log (Q.balance i) ≤ n * (1000000 * eps) := by
    by_cases hneg : log (P.balance i) - log (Q.balance i) ≤ 0
    · exact hneg.trans (by positivity)
    · nlinarith
  have hPi : (0 : ℝ) < P.balance i := by exact_mod_cast hB i
  have hQi : (0 : ℝ) < Q.balance i := by exact_mod_cast hB' i
  have h5 : (P.balance i : ℝ) * exp (-(n * (1000000 * eps))) ≤ Q.balance i := by
    rw [← Real.log_le_log_iff (by positivity) hQi, Real.log_mul hPi.ne' (Real.exp_pos _).ne', Real.log_exp]
    linarith
  have h6 := Real.add_one_le_exp (-((n : ℝ) * (1000000 * eps)))
  have h7 := mul_le_mul_of_nonneg_left h6 hPi.le
  have h8 : (P.balance i : ℝ) * (n * (1000000 * eps)) < 1 := by
    have h9 : (P.balance i : ℝ) * n ≤ 2 ^ 104 := by exact_mod_cast hsize
    have h10 := mul_le_mul_of_nonneg_right h9 (show 0 ≤ 1000000 * eps by positivity)
    have h11 : (2 : ℝ) ^ 104 * (1000000 * eps) < 1 := by rw [← eps_eq]; norm_num
    rw [← mul_assoc]; linarith
  have h9 : ((P.balance i - 1 : Int) : ℝ) < Q.balance i := by push_cast; nlinarith
  have : P.balance i - 1 < Q.balance i := by exact_mod_cast h9
  omega

/-- Nor does any sequence of `n` trades create smart tokens for nothing: if afterwards no connector holds more than
before, the supply is not larger (as long as the supply times `n` is at most 2^120). -/
theorem C46_no_free_supply {ι : Type} [DecidableEq ι] [Fintype ι] {weight : ι → Int} {n : Nat} {P Q : Curve.Pool ι}
    (hw : ∀ i, 1 ≤ weight i) (hS : 0 < P.supply) (hB : ∀ i, 0 < P.balance i) (h : Curve.Trades weight n P Q)
    (hbalances : ∀ j, Q.balance j ≤ P.balance j) (hsize : P.supply * n ≤ 2 ^ 120) : Q.supply ≤ P.supply := by
  obtain ⟨⟨hS', hB'⟩, hv⟩ := h.value hw ⟨hS, hB⟩
  have hε := eps_pos
  have hε2 := eps_small
  unfold Curve.Pool.logValue at hv
  have h1 : ∑ j, (weight j : ℝ) * log (Q.balance j) ≤ ∑ j, (weight j : ℝ) * log (P.balance j) := by
    refine Finset.sum_le_sum fun j hj => mul_le_mul_of_nonneg_left (Curve.log_mono (hB' j) (hbalances j)) ?_
    have := hw j; exact_mod_cast (by omega : 0 ≤ weight j)
  have h4 : log Q.supply - log P.supply ≤ n * eps := by linarith
  have hP : (0 : ℝ) < P.supply := by exact_mod_cast hS
  have hQ : (0 : ℝ) < Q.supply := by exact_mod_cast hS'
  have h5 : (Q.supply : ℝ) ≤ P.supply * exp (n * eps) := by
    rw [← Real.log_le_log_iff hQ (by positivity), Real.log_mul hP.ne' (Real.exp_pos _).ne', Real.log_exp]
    linarith
  have hPn : (P.supply : ℝ) * n ≤ 2 ^ 120 := by exact_mod_cast hsize
  have hn : (n : ℝ) * eps ≤ 1 / 10 := by
    have hP1 : (1 : ℝ) ≤ P.supply := by exact_mod_cast hS
    have h10 : (n : ℝ) ≤ 2 ^ 120 := by
      have : (0 : ℝ) ≤ n := by positivity
      nlinarith
    have h11 := mul_le_mul_of_nonneg_right h10 hε.le
    have h12 : (2 : ℝ) ^ 120 * eps ≤ 1 / 10 := by rw [← eps_eq]; norm_num
    linarith
  have h6 := mul_le_mul_of_nonneg_left (exp_small (by positivity) hn) hP.le
  have h7 : (P.supply : ℝ) * (n * eps) ≤ 2 ^ 120 * eps := by rw [← mul_assoc]; exact mul_le_mul_of_nonneg_right hPn hε.le
  have h8 : (2 : ℝ) ^ 120 * eps ≤ 1 / 10 := by rw [← eps_eq]; norm_num
  have h9 : (Q.supply : ℝ) < ((P.supply + 1 : Int) : ℝ) := by push_cast; nlinarith
  have : Q.supply < P.supply + 1 := by exact_mod_cast h9
  omega

/-! A concrete sequence of three trades that brings supply and source connector back: buy, convert across, sell. -/

/-- Two connectors of 25% and 50%. -/
def exampleWeights : Fin 2 → Int := ![250000, 500000]
/-- 50000 and 80000 in the connectors, 100000 smart tokens. -/
def examplePool : Curve.Pool (Fin 2) := ⟨100000, ![50000, 80000]⟩

theorem exampleTrades : ∃ Q, Curve.Trades exampleWeights 3 examplePool Q ∧ Q.supply = 100000 ∧ Q.balance 0 = 59990 ∧ Q.balance 1 = 73037 := by
  refine ⟨_, .more (.more (.more (.none _) (.buy _ 0 5000 2411 2411 ?_ ?_ ?_ ?_)) (.cross _ 0 1 4990 3399 3399 ?_ ?_ ?_ ?_ ?_)) (.sell _ 1 2411 3564 3564 ?_ ?_ ?_ ?_ ?_), ?_, ?_, ?_⟩ <;>
    decide +kernel

example : ∀ i, 1 ≤ exampleWeights i ∧ 0 < examplePool.balance i := by decide

/-! ### C47: accuracy -/

/-- Whatever the size of the supply: a purchase that multiplies the supply by at most 2^22 returns the exact amount up to
one unit and a relative error of 2000/2^127 of the new supply. -/
theorem C47_purchase_relative (hd : 0 ≤ d) (h : calculatePurchaseReturn s b w d = .ok r) (hgrowth : (s : ℝ) + Curve.purchase s b w d ≤ 2 ^ 22 * s) :
    |(r : ℝ) - Curve.purchase s b w d| ≤ 1 + 2000 / 2 ^ 127 * (s + Curve.purchase s b w d) := by
  obtain ⟨hs, hb, hw⟩ := purchase_input h
  obtain ⟨hw1, hw2⟩ := weight_real hw
  have hs' : (0 : ℝ) < s := by exact_mod_cast hs
  have hF := Fr_pos
  have eF : (2 : ℝ) ^ 127 = Fr := by unfold Fr; rfl
  have hε := eps_pos
  have hu := purchase_up hs hb hw hd h
  unfold Curve.purchase at hgrowth ⊢
  rw [eF]
  rw [ratio_eq hb, rpow_exp (ratio_pos hb hd), mul_sub, mul_one] at hgrowth ⊢
  have hE := Real.exp_pos ((w : ℝ) / 1000000 * log (((d + b : Int) : ℝ) / b))
  have hl := purchase_low hs hb hw hd h (by
    have : (s : ℝ) * exp ((w : ℝ) / 1000000 * log (((d + b : Int) : ℝ) / b)) ≤ s * 2 ^ 22 := by linarith
    exact le_of_mul_le_mul_left this hs')
  have hX : 0 < (s : ℝ) * exp ((w : ℝ) / 1000000 * log (((d + b : Int) : ℝ) / b)) := by positivity
  rw [mul_add, Real.exp_add, ← mul_assoc] at hu
  have h1 : exp ((w : ℝ) / 1000000 * eps) ≤ 1 + 11 / 10 * eps := by
    have h2 : (w : ℝ) / 1000000 * eps ≤ eps := by
      have : (w : ℝ) / 1000000 ≤ 1 := by rw [div_le_one (by norm_num)]; exact hw2
      nlinarith
    exact (Real.exp_le_exp.mpr h2).trans (exp_small hε.le (eps_small.trans (by norm_num)))
  have h5 := mul_le_mul_of_nonneg_left h1 hX.le
  generalize (s : ℝ) * exp ((w : ℝ) / 1000000 * log (((d + b : Int) : ℝ) / b)) = X at hu hl hX h5 ⊢
  have h6 : X * (11 / 10 * eps) ≤ X * (2000 / Fr) := by
    refine mul_le_mul_of_nonneg_left ?_ hX.le
    unfold eps
    rw [← mul_div_assoc]
    exact div_le_div_of_nonneg_right (by norm_num) hF.le
  rw [abs_le]
  constructor <;> nlinarith

/-- While the exact supply after the purchase is at most 2^22 times the supply before and at most 2^116, a purchase
returns the exact amount up to less than two units. -/
theorem C47_purchase (hd : 0 ≤ d) (h : calculatePurchaseReturn s b w d = .ok r) (hgrowth : (s : ℝ) + Curve.purchase s b w d ≤ 2 ^ 22 * s)
    (hsize : (s : ℝ) + Curve.purchase s b w d ≤ 2 ^ 116) : |(r : ℝ) - Curve.purchase s b w d| < 2 := by
  have hup := C45_purchase_units hd h (hsize.trans (by norm_num))
  obtain ⟨hs, hb, hw⟩ := purchase_input h
  have hs' : (0 : ℝ) < s := by exact_mod_cast hs
  have hF := Fr_pos
  rw [abs_lt]
  refine ⟨?_, by linarith⟩
  unfold Curve.purchase at hgrowth hsize ⊢
  rw [ratio_eq hb, rpow_exp (ratio_pos hb hd), mul_sub, mul_one] at hgrowth hsize ⊢
  have hE := Real.exp_pos ((w : ℝ) / 1000000 * log (((d + b : Int) : ℝ) / b))
  have hl := purchase_low hs hb hw hd h (by
    have : (s : ℝ) * exp ((w : ℝ) / 1000000 * log (((d + b : Int) : ℝ) / b)) ≤ s * 2 ^ 22 := by linarith
    exact le_of_mul_le_mul_left this hs')
  have hX : 0 < (s : ℝ) * exp ((w : ℝ) / 1000000 * log (((d + b : Int) : ℝ) / b)) := by positivity
  generalize (s : ℝ) * exp ((w : ℝ) / 1000000 * log (((d + b : Int) : ℝ) / b)) = X at hgrowth hsize hl hX ⊢
  have h1 : X * (2000 / Fr) ≤ 2 ^ 116 * (2000 / Fr) := mul_le_mul_of_nonneg_right (by linarith) (by positivity)
  have h2 : (2 : ℝ) ^ 116 * (2000 / Fr) < 1 := by unfold Fr; norm_num
  rw [mul_sub, mul_one] at hl
  linarith

theorem loss_units {β B X : ℝ} (hβ0 : 0 ≤ β) (hβ : β ≤ 1000000) (hB : B ≤ 2 ^ 94) (hX0 : 0 ≤ X) (hX : X ≤ B) : X * (2 * loss β) < 1 := by
  obtain ⟨h0, h1⟩ := loss_bounds hβ0 hβ
  have h2 : X * (2 * loss β) ≤ 2 ^ 94 * (2 * (1 / 2 ^ 96)) := mul_le_mul (hX.trans hB) (by linarith) (by positivity) (by positivity)
  have h3 : (2 : ℝ) ^ 94 * (2 * (1 / 2 ^ 96)) < 1 := by norm_num
  linarith

/-- While the exact balance after the sale is at least 2^-22 of the balance before, and the balance is at most 2^94, a
sale returns the exact amount up to less than two units. -/
theorem C47_sale (hd : 0 ≤ d) (h : calculateSaleReturn s b w d = .ok r) (hrest : (b : ℝ) / 2 ^ 22 ≤ b - Curve.sale s b w d) (hsize : b ≤ 2 ^ 94) :
    |(r : ℝ) - Curve.sale s b w d| < 2 := by
  have hup := C45_sale_units hd (show b ≤ 2 ^ 104 by omega) h
  obtain ⟨hs, hb, hw, hds⟩ := sale_input h
  obtain ⟨hw1, hw2⟩ := weight_real hw
  have hs' : (0 : ℝ) < s := by exact_mod_cast hs
  have hb' : (0 : ℝ) < b := by exact_mod_cast hb
  have e1 : (1 : ℝ) / ((w : ℝ) / 1000000) = 1000000 / w := by rw [one_div, inv_div]
  have hβ0 : (0 : ℝ) ≤ 1000000 / w := by positivity
  have hβ1 : (1000000 : ℝ) / w ≤ 1000000 := by rw [div_le_iff₀ (by linarith)]; nlinarith
  rw [abs_lt]
  refine ⟨?_, by linarith⟩
  unfold Curve.sale at hrest ⊢
  rw [e1] at hrest ⊢
  have hds' : d < s := by
    rcases Int.lt_or_eq_of_le hds with h | h
    · exact h
    · subst h
      rw [div_self hs'.ne', sub_self, Real.zero_rpow (by positivity), sub_zero, mul_one, sub_self] at hrest
      have : (0 : ℝ) < (b : ℝ) / 2 ^ 22 := by positivity
      linarith
  have hp := rest_pos hs hds'
  have hL := ratio_log_nonneg (show 0 < s - d by omega) (show s - d ≤ s by omega)
  rw [rest_eq hs, rpow_exp (inv_pos.mpr hp), Real.log_inv, mul_neg, mul_sub, mul_one] at hrest ⊢
  have hg : exp (1000000 / (w : ℝ) * log (s / (s - d : Int))) ≤ 2 ^ 22 := by
    have h1 : (b : ℝ) * (1 / 2 ^ 22) ≤ b * exp (-(1000000 / (w : ℝ) * log (s / (s - d : Int)))) := by
      rw [mul_one_div]; linarith
    have h2 := le_of_mul_le_mul_left h1 hb'
    rw [Real.exp_neg, one_div] at h2
    exact (inv_le_inv₀ (by positivity) (Real.exp_pos _)).mp h2
  have hl := sale_low hs hb hw hd hds' h hg
  have hX : (b : ℝ) * exp (-(1000000 / (w : ℝ) * log (s / (s - d : Int)))) ≤ b := by
    have : exp (-(1000000 / (w : ℝ) * log (s / (s - d : Int)))) ≤ 1 := Real.exp_le_one_iff.mpr (by rw [neg_nonpos]; positivity)
    nlinarith
  have := loss_units hβ0 hβ1 (show (b : ℝ) ≤ 2 ^ 94 by exact_mod_cast hsize) (by positivity) hX
  rw [mul_add, mul_one] at hl
  linarith

/-- While the exact target balance after the conversion is at least 2^-22 of the balance before, and the balance is at
most 2^94, a cross conversion returns the exact amount up to less than two units. -/
theorem C47_cross (ha : 0 ≤ a) (h : calculateCrossConnectorReturn fb fw tb tw a = .ok r)
    (hrest : (tb : ℝ) / 2 ^ 22 ≤ tb - Curve.cross fb fw tb tw a) (hsize : tb ≤ 2 ^ 94) : |(r : ℝ) - Curve.cross fb fw tb tw a| < 2 := by
  have hup := C45_cross_units ha (show tb ≤ 2 ^ 104 by omega) h
  obtain ⟨hf, hfw, ht, htw⟩ := cross_input h
  obtain ⟨hw1, hw2⟩ := weight_real hfw
  obtain ⟨hw3, hw4⟩ := weight_real htw
  have hf' : (0 : ℝ) < fb := by exact_mod_cast hf
  have ht' : (0 : ℝ) < tb := by exact_mod_cast ht
  have hfa : (0 : ℝ) < ((fb + a : Int) : ℝ) := by exact_mod_cast (by omega : 0 < fb + a)
  have hβ0 : (0 : ℝ) ≤ (fw : ℝ) / tw := by positivity
  have hβ1 : (fw : ℝ) / tw ≤ 1000000 := by rw [div_le_iff₀ (by linarith)]; nlinarith
  have hL := ratio_log_nonneg hf (show fb ≤ fb + a by omega)
  have e : (fb : ℝ) / (fb + a) = (((fb + a : Int) : ℝ) / fb)⁻¹ := by rw [inv_div]; push_cast; rfl
  rw [abs_lt]
  refine ⟨?_, by linarith⟩
  unfold Curve.cross at hrest ⊢
  rw [e, rpow_exp (inv_pos.mpr (by positivity)), Real.log_inv, mul_neg, mul_sub, mul_one] at hrest ⊢
  have hg : exp ((fw : ℝ) / tw * log ((fb + a : Int) / fb)) ≤ 2 ^ 22 := by
    have h1 : (tb : ℝ) * (1 / 2 ^ 22) ≤ tb * exp (-((fw : ℝ) / tw * log ((fb + a : Int) / fb))) := by
      rw [mul_one_div]; linarith
    have h2 := le_of_mul_le_mul_left h1 ht'
    rw [Real.exp_neg, one_div] at h2
    exact (inv_le_inv₀ (by positivity) (Real.exp_pos _)).mp h2
  have hl := cross_low hf hfw ht htw ha h hg
  have hX : (tb : ℝ) * exp (-((fw : ℝ) / tw * log ((fb + a : Int) / fb))) ≤ tb := by
    have : exp (-((fw : ℝ) / tw * log ((fb + a : Int) / fb))) ≤ 1 := Real.exp_le_one_iff.mpr (by rw [neg_nonpos]; positivity)
    nlinarith
  have := loss_units hβ0 hβ1 (show (tb : ℝ) ≤ 2 ^ 94 by exact_mod_cast hsize) (by positivity) hX
  rw [mul_add, mul_one] at hl
  linarith

/-! Concrete cases. -/

example : |((2411 : Int) : ℝ) - Curve.purchase (100000 : Int) (50000 : Int) (250000 : Int) (5000 : Int)| < 2 :=
  C47_purchase (s := 100000) (b := 50000) (w := 250000) (d := 5000) (by decide) (by decide +kernel)
    ((purchase_bound (by norm_num) (by norm_num) (by norm_num) (by norm_num)).trans (by norm_num))
    ((purchase_bound (by norm_num) (by norm_num) (by norm_num) (by norm_num)).trans (by norm_num))

/-- The sale of the scenario keeps `0.95^4` of the balance. -/
theorem example_sale : Curve.sale (100000 : Int) (50000 : Int) (250000 : Int) (5000 : Int) = 9274.6875 := by
  unfold Curve.sale
  have e : (1 : ℝ) / (((250000 : Int) : ℝ) / 1000000) = ((4 : Nat) : ℝ) := by norm_num
  rw [e, Real.rpow_natCast]
  norm_num

example : |((9274 : Int) : ℝ) - Curve.sale (100000 : Int) (50000 : Int) (250000 : Int) (5000 : Int)| < 2 :=
  C47_sale (s := 100000) (b := 50000) (w := 250000) (d := 5000) (by decide) (by decide +kernel) (by rw [example_sale]; norm_num) (by decide)

/-- A cross conversion from 50% to 25% keeps `(10/11)^2` of the balance. -/
theorem example_cross : Curve.cross (50000 : Int) (500000 : Int) (121000 : Int) (250000 : Int) (5000 : Int) = 21000 := by
  unfold Curve.cross
  have e : ((500000 : Int) : ℝ) / ((250000 : Int) : ℝ) = ((2 : Nat) : ℝ) := by norm_num
  rw [e, Real.rpow_natCast]
  norm_num

example : calculateCrossConnectorReturn 50000 500000 121000 250000 5000 = .ok 20999 := by decide +kernel
example : |((20999 : Int) : ℝ) - Curve.cross (50000 : Int) (500000 : Int) (121000 : Int) (250000 : Int) (5000 : Int)| < 2 :=
  C47_cross (fb := 50000) (fw := 500000) (tb := 121000) (tw := 250000) (a := 5000) (by decide) (by decide +kernel)
    (by rw [example_cross]; norm_num) (by decide)

/-! Outside those bounds the result is not exact, but still large. -/

/-- When the exact supply after the purchase is at least 2^22 times the supply before, the purchase returns at least four
million times the supply. -/
theorem C47_purchase_large (hd : 0 ≤ d) (h : calculatePurchaseReturn s b w d = .ok r) (hgrowth : 2 ^ 22 * (s : ℝ) ≤ s + Curve.purchase s b w d) :
    4000000 * s ≤ r := by
  obtain ⟨hs, hb, hw⟩ := purchase_input h
  have hs' : (0 : ℝ) < s := by exact_mod_cast hs
  unfold Curve.purchase at hgrowth
  rw [ratio_eq hb, rpow_exp (ratio_pos hb hd), mul_sub, mul_one] at hgrowth
  refine purchase_large hs hb hw hd h ?_
  have : (s : ℝ) * 2 ^ 22 ≤ s * exp ((w : ℝ) / 1000000 * log (((d + b : Int) : ℝ) / b)) := by linarith
  exact le_of_mul_le_mul_left this hs'

/-- When the exact balance after the sale is at most 2^-22 of the balance before, the sale leaves at most one part in
four million of the balance and one unit. -/
theorem C47_sale_large (hd : 0 ≤ d) (h : calculateSaleReturn s b w d = .ok r) (hrest : b - Curve.sale s b w d ≤ (b : ℝ) / 2 ^ 22) :
    4000000 * (b - r) ≤ b + 4000000 := by
  obtain ⟨hs, hb, hw, hds⟩ := sale_input h
  obtain ⟨hw1, hw2⟩ := weight_real hw
  have hs' : (0 : ℝ) < s := by exact_mod_cast hs
  have hb' : (0 : ℝ) < b := by exact_mod_cast hb
  have e1 : (1 : ℝ) / ((w : ℝ) / 1000000) = 1000000 / w := by rw [one_div, inv_div]
  by_cases hall : d = s
  · subst hall
    rw [sale_valid hs hb hw hds, if_neg (by omega), if_pos rfl] at h
    injection h with h; omega
  have hds' : d < s := by omega
  have hp := rest_pos hs hds'
  unfold Curve.sale at hrest
  rw [e1, rest_eq hs, rpow_exp (inv_pos.mpr hp), Real.log_inv, mul_neg, mul_sub, mul_one] at hrest
  refine sale_large hs hb hw hd hds' h ?_
  have h1 : (b : ℝ) * exp (-(1000000 / (w : ℝ) * log (s / (s - d : Int)))) ≤ b * (1 / 2 ^ 22) := by
    rw [mul_one_div]; linarith
  have h2 := le_of_mul_le_mul_left h1 hb'
  rw [Real.exp_neg, one_div] at h2
  exact (inv_le_inv₀ (Real.exp_pos _) (by positivity)).mp h2

/-- When the exact target balance after the conversion is at most 2^-22 of the balance before, the conversion leaves at
most one part in four million of the balance and one unit. -/
theorem C47_cross_large (ha : 0 ≤ a) (h : calculateCrossConnectorReturn fb fw tb tw a = .ok r)
    (hrest : tb - Curve.cross fb fw tb tw a ≤ (tb : ℝ) / 2 ^ 22) : 4000000 * (tb - r) ≤ tb + 4000000 := by
  obtain ⟨hf, hfw, ht, htw⟩ := cross_input h
  have hf' : (0 : ℝ) < fb := by exact_mod_cast hf
  have ht' : (0 : ℝ) < tb := by exact_mod_cast ht
  have hfa : (0 : ℝ) < ((fb + a : Int) : ℝ) := by exact_mod_cast (by omega : 0 < fb + a)
  have e : (fb : ℝ) / (fb + a) = (((fb + a : Int) : ℝ) / fb)⁻¹ := by rw [inv_div]; push_cast; rfl
  unfold Curve.cross at hrest
  rw [e, rpow_exp (inv_pos.mpr (by positivity)), Real.log_inv, mul_neg, mul_sub, mul_one] at hrest
  refine cross_large hf hfw ht htw ha h ?_
  have h1 : (tb : ℝ) * exp (-((fw : ℝ) / tw * log ((fb + a : Int) / fb))) ≤ tb * (1 / 2 ^ 22) := by
    rw [mul_one_div]; linarith
  have h2 := le_of_mul_le_mul_left h1 ht'
  rw [Real.exp_neg, one_div] at h2
  exact (inv_le_inv₀ (Real.exp_pos _) (by positivity)).mp h2

/-! Concrete cases: the exact growth is 2^30, 2^40 and 2^30. -/

theorem example_large_purchase : ((1000 : Int) : ℝ) + Curve.purchase (1000 : Int) (1 : Int) (500000 : Int) ((2 ^ 60 - 1 : Int)) = 1000 * 2 ^ 30 := by
  unfold Curve.purchase
  have e : ((500000 : Int) : ℝ) / 1000000 = 1 / 2 := by norm_num
  have e2 : (1 + ((2 ^ 60 - 1 : Int) : ℝ) / ((1 : Int) : ℝ)) = (2 ^ 30) ^ 2 := by norm_num
  rw [e, ← Real.sqrt_eq_rpow, e2, Real.sqrt_sq (by positivity)]
  norm_num

example : calculatePurchaseReturn 1000 1 500000 (2 ^ 60 - 1) = .ok 1068600162509 := by decide +kernel
example : 4000000 * (1000 : Int) ≤ 1068600162509 :=
  C47_purchase_large (s := 1000) (b := 1) (w := 500000) (d := 2 ^ 60 - 1) (by decide) (by decide +kernel) (by rw [example_large_purchase]; norm_num)

example : calculateSaleReturn 1024 (2 ^ 60) 250000 1023 = .ok 1152921504605631427 := by decide +kernel
example : 4000000 * ((2 ^ 60 : Int) - 1152921504605631427) ≤ 2 ^ 60 + 4000000 :=
  C47_sale_large (s := 1024) (b := 2 ^ 60) (w := 250000) (d := 1023) (by decide) (by decide +kernel) (by
    unfold Curve.sale
    have e : (1 : ℝ) / (((250000 : Int) : ℝ) / 1000000) = ((4 : Nat) : ℝ) := by norm_num
    rw [e, Real.rpow_natCast]
    norm_num)

example : calculateCrossConnectorReturn 1 500000 (10 ^ 12) 250000 (2 ^ 15 - 1) = .ok 999999999064 := by decide +kernel
example : 4000000 * ((10 ^ 12 : Int) - 999999999064) ≤ 10 ^ 12 + 4000000 :=
  C47_cross_large (fb := 1) (fw := 500000) (tb := 10 ^ 12) (tw := 250000) (a := 2 ^ 15 - 1) (by decide) (by decide +kernel) (by
    unfold Curve.cross
    have e : ((500000 : Int) : ℝ) / ((250000 : Int) : ℝ) = ((2 : Nat) : ℝ) := by norm_num
    rw [e, Real.rpow_natCast]
    norm_num)

/-! ### C51: monotone returns -/

/-- At weight 100% a larger deposit never returns less. -/
theorem C51_purchase_full {d₁ d₂ r₁ r₂ : Int} (hd : d₁ ≤ d₂) (h1 : calculatePurchaseReturn s b 1000000 d₁ = .ok r₁)
    (h2 : calculatePurchaseReturn s b 1000000 d₂ = .ok r₂) : r₁ ≤ r₂ := by
  obtain ⟨hs, hb, hw⟩ := purchase_input h1
  have e : ∀ {d r : Int}, calculatePurchaseReturn s b 1000000 d = .ok r → r = s * d / b := by
    intro d r h
    rw [purchase_valid hs hb hw] at h
    split at h
    · rename_i h0; injection h with h; subst h0; rw [Int.mul_zero, Int.zero_ediv]; exact h.symm
    · rw [if_pos rfl] at h; injection h with h; exact h.symm
  rw [e h1, e h2]
  exact Int.ediv_le_ediv hb (Int.mul_le_mul_of_nonneg_left hd hs.le)

/-- At weight 100% selling more never returns less. -/
theorem C51_sale_full {d₁ d₂ r₁ r₂ : Int} (hd : d₁ ≤ d₂) (h1 : calculateSaleReturn s b 1000000 d₁ = .ok r₁)
    (h2 : calculateSaleReturn s b 1000000 d₂ = .ok r₂) : r₁ ≤ r₂ := by
  obtain ⟨hs, hb, hw, _⟩ := sale_input h1
  have e : ∀ {d r : Int}, calculateSaleReturn s b 1000000 d = .ok r → r = b * d / s := by
    intro d r h
    obtain ⟨_, _, _, hds⟩ := sale_input h
    rw [sale_valid hs hb hw hds] at h
    split at h
    · rename_i h0; injection h with h; subst h0; rw [Int.mul_zero, Int.zero_ediv]; exact h.symm
    split at h
    · rename_i h0; injection h with h; subst h0; rw [Int.mul_ediv_cancel _ (by omega)]; exact h.symm
    · rw [if_pos rfl] at h; injection h with h; exact h.symm
  rw [e h1, e h2]
  exact Int.ediv_le_ediv hs (Int.mul_le_mul_of_nonneg_left hd hb.le)

/-- Between connectors of equal weight converting more never returns less. -/
theorem C51_cross_equal {a₁ a₂ r₁ r₂ : Int} (h0 : 0 ≤ a₁) (ha : a₁ ≤ a₂) (h1 : calculateCrossConnectorReturn fb w tb w a₁ = .ok r₁)
    (h2 : calculateCrossConnectorReturn fb w tb w a₂ = .ok r₂) : r₁ ≤ r₂ := by
  obtain ⟨hf, hw, ht, _⟩ := cross_input h1
  have e : ∀ {a r : Int}, 0 ≤ a → calculateCrossConnectorReturn fb w tb w a = .ok r → r = tb * a / (fb + a) := by
    intro a r ha h
    rw [cross_valid hf hw ht hw, if_pos rfl, if_neg (by omega), Int.fdiv_eq_ediv_of_nonneg _ (by omega)] at h
    injection h with h; exact h.symm
  rw [e h0 h1, e (by omega) h2]
  rw [Int.le_ediv_iff_mul_le (by omega)]
  have h3 := Int.ediv_mul_le (tb * a₁) (show fb + a₁ ≠ 0 by omega)
  generalize hq : tb * a₁ / (fb + a₁) = q at h3
  have hq1 : q ≤ tb := by
    rw [← hq]
    refine Int.ediv_le_of_le_mul (by omega) ?_
    nlinarith
  nlinarith

/-- While the exact supply after the larger purchase is at most 2^22 times the supply before and at most 2^116, a larger
deposit returns at most two units less. -/
theorem C51_purchase {d₁ d₂ r₁ r₂ : Int} (h0 : 0 ≤ d₁) (hd : d₁ ≤ d₂) (h1 : calculatePurchaseReturn s b w d₁ = .ok r₁)
    (h2 : calculatePurchaseReturn s b w d₂ = .ok r₂) (hgrowth : (s : ℝ) + Curve.purchase s b w d₂ ≤ 2 ^ 22 * s)
    (hsize : (s : ℝ) + Curve.purchase s b w d₂ ≤ 2 ^ 116) : r₁ ≤ r₂ + 2 := by
  obtain ⟨hs, hb, hw⟩ := purchase_input h1
  obtain ⟨hw1, hw2⟩ := weight_real hw
  have hs' : (0 : ℝ) < s := by exact_mod_cast hs
  have hb' : (0 : ℝ) < b := by exact_mod_cast hb
  have hd' : (d₁ : ℝ) ≤ d₂ := by exact_mod_cast hd
  have h0' : (0 : ℝ) ≤ d₁ := by exact_mod_cast h0
  have hmono : Curve.purchase s b w d₁ ≤ Curve.purchase s b w d₂ := by
    unfold Curve.purchase
    have h3 : (1 + (d₁ : ℝ) / b) ≤ 1 + (d₂ : ℝ) / b := by
      have := div_le_div_of_nonneg_right hd' hb'.le; linarith
    have h4 := Real.rpow_le_rpow (by positivity) h3 (show 0 ≤ (w : ℝ) / 1000000 by positivity)
    nlinarith
  have u1 := C45_purchase_units h0 h1 (by linarith [show (2 : ℝ) ^ 116 ≤ 2 ^ 124 by norm_num])
  have u2 := (abs_lt.mp (C47_purchase (by omega) h2 hgrowth hsize)).1
  have : (r₁ : ℝ) < ((r₂ + 3 : Int) : ℝ) := by push_cast; linarith
  have : r₁ < r₂ + 3 := by exact_mod_cast this
  omega

/-- While the exact balance after the larger sale is at least 2^-22 of the balance before, and the balance is at most
2^94, selling more returns at most two units less. -/
theorem C51_sale {d₁ d₂ r₁ r₂ : Int} (h0 : 0 ≤ d₁) (hd : d₁ ≤ d₂) (h1 : calculateSaleReturn s b w d₁ = .ok r₁)
    (h2 : calculateSaleReturn s b w d₂ = .ok r₂) (hrest : (b : ℝ) / 2 ^ 22 ≤ b - Curve.sale s b w d₂) (hsize : b ≤ 2 ^ 94) : r₁ ≤ r₂ + 2 := by
  obtain ⟨hs, hb, hw, hds⟩ := sale_input h2
  obtain ⟨hw1, hw2⟩ := weight_real hw
  have hs' : (0 : ℝ) < s := by exact_mod_cast hs
  have hb' : (0 : ℝ) < b := by exact_mod_cast hb
  have hd' : (d₁ : ℝ) ≤ d₂ := by exact_mod_cast hd
  have hds' : (d₂ : ℝ) ≤ s := by exact_mod_cast hds
  have hmono : Curve.sale s b w d₁ ≤ Curve.sale s b w d₂ := by
    unfold Curve.sale
    have h3 : (1 - (d₂ : ℝ) / s) ≤ 1 - (d₁ : ℝ) / s := by
      have := div_le_div_of_nonneg_right hd' hs'.le; linarith
    have h4 : 0 ≤ (1 - (d₂ : ℝ) / s) := by
      have : (d₂ : ℝ) / s ≤ 1 := by rw [div_le_one hs']; exact hds'
      linarith
    have h4 := Real.rpow_le_rpow h4 h3 (show 0 ≤ 1 / ((w : ℝ) / 1000000) by positivity)
    nlinarith
  have u1 := C45_sale_units h0 (show b ≤ 2 ^ 104 by omega) h1
  have u2 := (abs_lt.mp (C47_sale (by omega) h2 hrest hsize)).1
  have : (r₁ : ℝ) < ((r₂ + 3 : Int) : ℝ) := by push_cast; linarith
  have : r₁ < r₂ + 3 := by exact_mod_cast this
  omega

/-- While the exact target balance after the larger conversion is at least 2^-22 of the balance before, and the balance
is at most 2^94, converting more returns at most two units less. -/
theorem C51_cross {a₁ a₂ r₁ r₂ : Int} (h0 : 0 ≤ a₁) (ha : a₁ ≤ a₂) (h1 : calculateCrossConnectorReturn fb fw tb tw a₁ = .ok r₁)
    (h2 : calculateCrossConnectorReturn fb fw tb tw a₂ = .ok r₂) (hrest : (tb : ℝ) / 2 ^ 22 ≤ tb - Curve.cross fb fw tb tw a₂)
    (hsize : tb ≤ 2 ^ 94) : r₁ ≤ r₂ + 2 := by
  obtain ⟨hf, hfw, ht, htw⟩ := cross_input h1
  obtain ⟨hw1, hw2⟩ := weight_real hfw
  obtain ⟨hw3, hw4⟩ := weight_real htw
  have hf' : (0 : ℝ) < fb := by exact_mod_cast hf
  have ht' : (0 : ℝ) < tb := by exact_mod_cast ht
  have ha' : (a₁ : ℝ) ≤ a₂ := by exact_mod_cast ha
  have h0' : (0 : ℝ) ≤ a₁ := by exact_mod_cast h0
  have hmono : Curve.cross fb fw tb tw a₁ ≤ Curve.cross fb fw tb tw a₂ := by
    unfold Curve.cross
    have h3 : (fb : ℝ) / (fb + a₂) ≤ fb / (fb + a₁) := div_le_div_of_nonneg_left hf'.le (by positivity) (by linarith)
    have h5 : (0 : ℝ) ≤ a₂ := h0'.trans ha'
    have h4 := Real.rpow_le_rpow (by positivity) h3 (show 0 ≤ (fw : ℝ) / tw by positivity)
    nlinarith
  have u1 := C45_cross_units h0 (show tb ≤ 2 ^ 104 by omega) h1
  have u2 := (abs_lt.mp (C47_cross (by omega) h2 hrest hsize)).1
  have : (r₁ : ℝ) < ((r₂ + 3 : Int) : ℝ) := by push_cast; linarith
  have : r₁ < r₂ + 3 := by exact_mod_cast this
  omega

example : calculatePurchaseReturn 100000 50000 250000 4000 = .ok 1942 ∧ calculatePurchaseReturn 100000 50000 250000 5000 = .ok 2411 ∧
    calculateSaleReturn 100000 50000 250000 4000 = .ok 7532 ∧ calculateSaleReturn 100000 50000 250000 5000 = .ok 9274 := by decide +kernel
example : calculatePurchaseReturn 100000 50000 1000000 4000 = .ok 8000 ∧ calculateSaleReturn 100000 50000 1000000 4000 = .ok 2000 ∧
    calculateCrossConnectorReturn 50000 250000 80000 250000 5000 = .ok 7272 := by decide +kernel
example : (1942 : Int) ≤ 2411 + 2 := C51_purchase (s := 100000) (b := 50000) (w := 250000) (d₁ := 4000) (d₂ := 5000) (by decide) (by decide)
    (by decide +kernel) (by decide +kernel)
    ((purchase_bound (by norm_num) (by norm_num) (by norm_num) (by norm_num)).trans (by norm_num))
    ((purchase_bound (by norm_num) (by norm_num) (by norm_num) (by norm_num)).trans (by norm_num))

/-- Without those bounds it fails badly: doubling a deposit can lose a twelfth of the tokens. The exponent lies above
every precision the table admits, and the code then computes with precision 0 instead of refusing. -/
theorem C51_not_monotone : ∃ s b w d₁ d₂ r₁ r₂ : Int, 0 ≤ d₁ ∧ d₁ ≤ d₂ ∧ calculatePurchaseReturn s b w d₁ = .ok r₁ ∧
    calculatePurchaseReturn s b w d₂ = .ok r₂ ∧ 12 * r₂ < 12 * r₁ - r₁ / 2 :=
  ⟨1000, 1, 999999, 2 ^ 81, 2 ^ 82, 1416688760253349172882801, 1304994210615148469586000, by decide +kernel⟩

end

end Verif.Formula
