import Verif.Proofs.FormulaPower
import Mathlib.Analysis.Complex.ExponentialBounds
/-!
The three public functions of the formula against the exact curve, in logarithmic form.
-/
namespace Verif.Formula
open Real

/-- Five units in the last place. -/
noncomputable def eps : ℝ := 5 / Fr

theorem eps_pos : 0 < eps := by unfold eps; have := Fr_pos; positivity

section
variable {s b w d r : Int}

theorem weight_real (hw : ValidWeight w) : (1 : ℝ) ≤ w ∧ (w : ℝ) ≤ 1000000 := by
  obtain ⟨h1, h2⟩ := hw
  exact ⟨by exact_mod_cast h1, by exact_mod_cast h2⟩

theorem shift_le (a : Int) (p : Nat) : ((a >>> p : Int) : ℝ) ≤ a / 2 ^ p := by
  rw [Int.shiftRight_eq_div_pow]
  refine (ediv_le_real (by positivity)).trans (le_of_eq ?_)
  push_cast; rfl

theorem lt_shift (a : Int) (p : Nat) : (a : ℝ) / 2 ^ p - 1 < ((a >>> p : Int) : ℝ) := by
  rw [Int.shiftRight_eq_div_pow]
  have := lt_ediv_real (a := a) (b := ((2 ^ p : Nat) : Int)) (by positivity)
  push_cast at this ⊢
  exact this

theorem ratio_log_nonneg {x y : Int} (hy : 0 < y) (h : y ≤ x) : 0 ≤ log ((x : ℝ) / y) := by
  have hy' : (0 : ℝ) < y := by exact_mod_cast hy
  exact Real.log_nonneg (by rw [le_div_iff₀ hy', one_mul]; exact_mod_cast h)

theorem purchase_up (hs : 0 < s) (hb : 0 < b) (hw : ValidWeight w) (hd : 0 ≤ d) (h : calculatePurchaseReturn s b w d = .ok r) :
    (s : ℝ) + r ≤ s * exp ((w : ℝ) / 1000000 * (log ((d + b : Int) / b) + eps)) := by
  have hs' : (0 : ℝ) < s := by exact_mod_cast hs
  have hb' : (0 : ℝ) < b := by exact_mod_cast hb
  obtain ⟨hw1, hw2⟩ := weight_real hw
  have hL := ratio_log_nonneg hb (show b ≤ d + b by omega)
  have hε := eps_pos
  rw [purchase_valid hs hb hw] at h
  split at h
  · injection h with h; subst h
    have : 1 ≤ exp ((w : ℝ) / 1000000 * (log ((d + b : Int) / b) + eps)) := Real.one_le_exp (by positivity)
    push_cast at this ⊢
    nlinarith
  split at h
  · rename_i hw; injection h with h; subst h; subst hw
    have h1 : ((s * d / b : Int) : ℝ) ≤ s * d / b := by
      refine (ediv_le_real hb).trans (le_of_eq ?_); push_cast; rfl
    have h2 : ((d + b : Int) : ℝ) / b ≤ exp (((1000000 : Int) : ℝ) / 1000000 * (log ((d + b : Int) / b) + eps)) := by
      have e : ((1000000 : Int) : ℝ) / 1000000 = 1 := by norm_num
      rw [e, one_mul, Real.exp_add]
      have hp : (0 : ℝ) < ((d + b : Int) : ℝ) / b := by
        have : (0 : ℝ) < ((d + b : Int) : ℝ) := by exact_mod_cast (by omega : 0 < d + b)
        positivity
      rw [Real.exp_log hp]
      have : 1 ≤ exp eps := Real.one_le_exp hε.le
      nlinarith
    have h3 := mul_le_mul_of_nonneg_left h2 hs'.le
    refine le_trans ?_ h3
    push_cast
    have e : (s : ℝ) * ((d + b) / b) = s * d / b + s := by field_simp
    push_cast at h1
    linarith
  split at h
  · cases h
  · injection h with h; subst h
    have hu := power_up (bn := d + b) (en := w) (ed := 1000000) hb (by omega) (by omega) (by have := hw.1; omega) (by norm_num)
    simp only [powerExponent] at hu
    generalize expPart (baseLog ((d + b) * FIXED_1 / b) * w / 1000000) = q at hu ⊢
    have h1 := shift_le (s * q.1) q.2
    push_cast at h1 hu ⊢
    have h2 := mul_le_mul_of_nonneg_left hu hs'.le
    rw [← mul_div_assoc] at h2
    unfold eps
    linarith

/-- The part kept, `balance * 2^p / r`, rounded up. -/
theorem part_up {b R : Int} {p : Nat} {E : ℝ} (hb : 0 < b) (hR : 0 < R) (h : (R : ℝ) / 2 ^ p ≤ exp E) :
    b * exp (-E) ≤ (b : ℝ) - ((b * R - b * 2 ^ p).fdiv R : Int) := by
  have hb' : (0 : ℝ) < b := by exact_mod_cast hb
  have hR' : (0 : ℝ) < R := by exact_mod_cast hR
  have hp : (0 : ℝ) < 2 ^ p := by positivity
  rw [Int.fdiv_eq_ediv_of_nonneg _ hR.le]
  have h1 := ediv_le_real (a := b * R - b * 2 ^ p) hR
  push_cast at h1
  have e : ((b : ℝ) * R - b * 2 ^ p) / R = b - b * (2 ^ p / R) := by field_simp
  rw [e] at h1
  have h2 : exp (-E) ≤ 2 ^ p / R := by
    rw [Real.exp_neg, inv_le_comm₀ (Real.exp_pos _) (by positivity), inv_div]; exact h
  have h3 := mul_le_mul_of_nonneg_left h2 hb'.le
  linarith

theorem part_low {b R : Int} {p : Nat} {E δ : ℝ} (hb : 0 < b) (hR : 0 < R) (hδ0 : 0 ≤ δ) (hδ : δ ≤ 1 / 2) (h : exp E * (1 - δ) ≤ (R : ℝ) / 2 ^ p) :
    (b : ℝ) - b * exp (-E) * (1 + 2 * δ) - 1 ≤ ((b * R - b * 2 ^ p).fdiv R : Int) := by
  have hb' : (0 : ℝ) < b := by exact_mod_cast hb
  have hR' : (0 : ℝ) < R := by exact_mod_cast hR
  have hp : (0 : ℝ) < 2 ^ p := by positivity
  rw [Int.fdiv_eq_ediv_of_nonneg _ hR.le]
  have h1 := lt_ediv_real (a := b * R - b * 2 ^ p) hR
  push_cast at h1
  have e : ((b : ℝ) * R - b * 2 ^ p) / R = b - b * (2 ^ p / R) := by field_simp
  rw [e] at h1
  have hE := Real.exp_pos E
  have h2 : 2 ^ p / (R : ℝ) ≤ exp (-E) * (1 + 2 * δ) := by
    have h3 : 2 ^ p / (R : ℝ) ≤ (exp E * (1 - δ))⁻¹ := by
      rw [← inv_div]; exact inv_anti₀ (by have : 0 < 1 - δ := by linarith
                                          positivity) h
    refine h3.trans ?_
    rw [mul_inv, Real.exp_neg]
    refine mul_le_mul_of_nonneg_left ?_ (by positivity)
    rw [inv_le_iff_one_le_mul₀ (by linarith)]
    nlinarith
  have h3 := mul_le_mul_of_nonneg_left h2 hb'.le
  rw [← mul_assoc] at h3
  linarith

theorem sale_up (hs : 0 < s) (hb : 0 < b) (hw : ValidWeight w) (hd : 0 ≤ d) (hds : d < s) (h : calculateSaleReturn s b w d = .ok r) :
    b * exp (-(1000000 / (w : ℝ) * (log (s / (s - d : Int)) + eps))) ≤ (b : ℝ) - r := by
  have hs' : (0 : ℝ) < s := by exact_mod_cast hs
  have hb' : (0 : ℝ) < b := by exact_mod_cast hb
  obtain ⟨hw1, hw2⟩ := weight_real hw
  have hL := ratio_log_nonneg (show 0 < s - d by omega) (show s - d ≤ s by omega)
  have hε := eps_pos
  rw [sale_valid hs hb hw hds.le] at h
  split at h
  · injection h with h; subst h
    have : exp (-(1000000 / (w : ℝ) * (log (s / (s - d : Int)) + eps))) ≤ 1 := Real.exp_le_one_iff.mpr (by
      rw [neg_nonpos]; positivity)
    push_cast at this ⊢
    nlinarith
  split at h
  · omega
  split at h
  · rename_i hw; injection h with h; subst h; subst hw
    have h1 : ((b * d / s : Int) : ℝ) ≤ b * d / s := by
      refine (ediv_le_real hs).trans (le_of_eq ?_); push_cast; rfl
    have hsd : (0 : ℝ) < ((s - d : Int) : ℝ) := by exact_mod_cast (by omega : 0 < s - d)
    have h2 : exp (-(1000000 / ((1000000 : Int) : ℝ) * (log (s / (s - d : Int)) + eps))) ≤ ((s - d : Int) : ℝ) / s := by
      have e : 1000000 / ((1000000 : Int) : ℝ) = 1 := by norm_num
      rw [e, one_mul, neg_add, Real.exp_add, ← Real.log_inv, inv_div, Real.exp_log (by positivity)]
      have : exp (-eps) ≤ 1 := Real.exp_le_one_iff.mpr (by linarith)
      have h3 : 0 ≤ ((s - d : Int) : ℝ) / s := by positivity
      nlinarith
    have h3 := mul_le_mul_of_nonneg_left h2 hb'.le
    refine h3.trans ?_
    push_cast
    have e : (b : ℝ) * ((s - d) / s) = b - b * d / s := by field_simp
    push_cast at h1
    linarith
  split at h
  · cases h
  · simp only at h
    split at h
    · cases h
    · injection h with h; subst h
      have hx := exponent_nonneg (bn := s) (bd := s - d) (en := 1000000) (ed := w) (by omega) (by omega) (by omega) (by have := hw.1; omega)
      have hu := power_up (bn := s) (bd := s - d) (en := 1000000) (ed := w) (by omega) (by omega) (by omega) (by omega) (by have := hw.1; omega)
      simp only [powerExponent] at hu
      have hp := expPart_pos hx
      refine part_up hb hp ?_
      push_cast at hu ⊢
      unfold eps
      exact hu

theorem log_pow_22 : (22 : ℝ) * log 2 ≤ 153 / 10 := by
  have := Real.log_two_lt_d9
  linarith

theorem regime {en ed L : ℝ} (h0 : 0 ≤ en / ed) (h6 : en / ed ≤ 1000000) (h : exp (en / ed * L) ≤ 2 ^ 22) :
    en / ed * (Fr * L + 5) < 16 * Fr := by
  have hF := Fr_pos
  have h1 : en / ed * L ≤ 153 / 10 := by
    have h2 := Real.log_le_log (Real.exp_pos _) h
    rw [Real.log_exp, Real.log_pow] at h2
    exact h2.trans (by have := log_pow_22; push_cast; linarith)
  have h3 : en / ed * 5 < 1 / 2 * Fr := by
    have : (5000000 : ℝ) < 1 / 2 * Fr := by unfold Fr; norm_num
    linarith
  have h4 := mul_le_mul_of_nonneg_left h1 hF.le
  rw [mul_add]
  have e : en / ed * (Fr * L) = Fr * (en / ed * L) := by ring
  rw [e]
  linarith

theorem purchase_low (hs : 0 < s) (hb : 0 < b) (hw : ValidWeight w) (hd : 0 ≤ d) (h : calculatePurchaseReturn s b w d = .ok r)
    (hg : exp ((w : ℝ) / 1000000 * log ((d + b : Int) / b)) ≤ 2 ^ 22) :
    s * exp ((w : ℝ) / 1000000 * log ((d + b : Int) / b)) * (1 - 2000 / Fr) - 1 ≤ (s : ℝ) + r := by
  have hF := Fr_pos
  have hs' : (0 : ℝ) < s := by exact_mod_cast hs
  have hb' : (0 : ℝ) < b := by exact_mod_cast hb
  obtain ⟨hw1, hw2⟩ := weight_real hw
  have hL := ratio_log_nonneg hb (show b ≤ d + b by omega)
  have h2000 : 0 ≤ 2000 / Fr := by positivity
  rw [purchase_valid hs hb hw] at h
  split at h
  · rename_i h0; injection h with h; subst h; subst h0
    rw [Int.zero_add, div_self hb'.ne', Real.log_one, mul_zero, Real.exp_zero]
    push_cast
    nlinarith
  split at h
  · rename_i hw; injection h with h; subst h; subst hw
    have h1 : s * d / b - 1 < ((s * d / b : Int) : ℝ) := by
      have := lt_ediv_real (a := s * d) hb
      push_cast at this ⊢; exact this
    have e : ((1000000 : Int) : ℝ) / 1000000 = 1 := by norm_num
    have hp : (0 : ℝ) < ((d + b : Int) : ℝ) / b := by
      have : (0 : ℝ) < ((d + b : Int) : ℝ) := by exact_mod_cast (by omega : 0 < d + b)
      positivity
    rw [e, one_mul, Real.exp_log hp]
    have e2 : (s : ℝ) * (((d + b : Int) : ℝ) / b) = s * d / b + s := by push_cast; field_simp
    have h3 : 0 ≤ (s : ℝ) * (((d + b : Int) : ℝ) / b) * (2000 / Fr) := by positivity
    have e3 : (s : ℝ) * (((d + b : Int) : ℝ) / b) * (1 - 2000 / Fr) = s * d / b + s - s * (((d + b : Int) : ℝ) / b) * (2000 / Fr) := by rw [mul_sub, mul_one, e2]
    rw [e3]; linarith
  split at h
  · cases h
  · injection h with h; subst h
    have hα0 : (0 : ℝ) ≤ (w : ℝ) / 1000000 := by positivity
    have hα1 : (w : ℝ) / 1000000 ≤ 1 := by rw [div_le_one (by norm_num)]; exact hw2
    have h16 := regime (L := log ((d + b : Int) / b)) hα0 (hα1.trans (by norm_num)) hg
    have hu := power_low (bn := d + b) (en := w) (ed := 1000000) hb (by omega) (by omega) (by have := hw.1; omega) (by norm_num) (by push_cast at h16 ⊢; exact h16)
    simp only [powerExponent] at hu
    generalize expPart (baseLog ((d + b) * FIXED_1 / b) * w / 1000000) = q at hu ⊢
    have h1 := lt_shift (s * q.1) q.2
    push_cast at h1 hu ⊢
    have hE := Real.exp_pos ((w : ℝ) / 1000000 * log (((d : ℝ) + b) / b))
    generalize exp ((w : ℝ) / 1000000 * log (((d : ℝ) + b) / b)) = E at hu hE ⊢
    have h4 : E * (1 - 2000 / Fr) ≤ E * (1 - (1701 * ((w : ℝ) / 1000000) + 251) / Fr) := by
      refine mul_le_mul_of_nonneg_left ?_ hE.le
      have : (1701 * ((w : ℝ) / 1000000) + 251) / Fr ≤ 2000 / Fr := div_le_div_of_nonneg_right (by linarith) hF.le
      linarith
    have h2 := mul_le_mul_of_nonneg_left (h4.trans hu) hs'.le
    rw [← mul_div_assoc, ← mul_assoc] at h2
    linarith

/-- Relative accuracy of a power with exponent `β`. -/
noncomputable def loss (β : ℝ) : ℝ := (1701 * β + 251) / Fr

theorem loss_bounds {β : ℝ} (h0 : 0 ≤ β) (h1 : β ≤ 1000000) : 0 ≤ loss β ∧ loss β ≤ 1 / 2 ^ 96 := by
  have hF := Fr_pos
  refine ⟨by unfold loss; positivity, ?_⟩
  unfold loss
  rw [div_le_iff₀ hF]
  have : (1701 * 1000000 + 251 : ℝ) ≤ 1 / 2 ^ 96 * Fr := by unfold Fr; norm_num
  linarith

theorem sale_low (hs : 0 < s) (hb : 0 < b) (hw : ValidWeight w) (hd : 0 ≤ d) (hds : d < s) (h : calculateSaleReturn s b w d = .ok r)
    (hg : exp (1000000 / (w : ℝ) * log (s / (s - d : Int))) ≤ 2 ^ 22) :
    (b : ℝ) - b * exp (-(1000000 / (w : ℝ) * log (s / (s - d : Int)))) * (1 + 2 * loss (1000000 / w)) - 1 ≤ r := by
  have hF := Fr_pos
  have hs' : (0 : ℝ) < s := by exact_mod_cast hs
  have hb' : (0 : ℝ) < b := by exact_mod_cast hb
  obtain ⟨hw1, hw2⟩ := weight_real hw
  have hL := ratio_log_nonneg (show 0 < s - d by omega) (show s - d ≤ s by omega)
  have hβ0 : (0 : ℝ) ≤ 1000000 / w := by positivity
  have hβ1 : (1000000 : ℝ) / w ≤ 1000000 := by rw [div_le_iff₀ (by linarith)]; nlinarith
  obtain ⟨hl0, hl1⟩ := loss_bounds hβ0 hβ1
  rw [sale_valid hs hb hw hds.le] at h
  split at h
  · rename_i h0; injection h with h; subst h; subst h0
    rw [Int.sub_zero, div_self hs'.ne', Real.log_one, mul_zero, neg_zero, Real.exp_zero]
    push_cast
    nlinarith
  split at h
  · omega
  split at h
  · rename_i hw; injection h with h; subst h; subst hw
    have h1 : b * d / s - 1 < ((b * d / s : Int) : ℝ) := by
      have := lt_ediv_real (a := b * d) hs
      push_cast at this ⊢; exact this
    have hsd : (0 : ℝ) < ((s - d : Int) : ℝ) := by exact_mod_cast (by omega : 0 < s - d)
    have e : 1000000 / ((1000000 : Int) : ℝ) = 1 := by norm_num
    rw [e, one_mul, ← Real.log_inv, inv_div, Real.exp_log (by positivity)]
    rw [e] at hl0
    have e2 : (b : ℝ) * (((s - d : Int) : ℝ) / s) = b - b * d / s := by push_cast; field_simp
    have h3 : 0 ≤ (b : ℝ) * (((s - d : Int) : ℝ) / s) * (2 * loss 1) := by positivity
    have e3 : (b : ℝ) * (((s - d : Int) : ℝ) / s) * (1 + 2 * loss 1) = b - b * d / s + b * (((s - d : Int) : ℝ) / s) * (2 * loss 1) := by rw [mul_add, mul_one, e2]
    rw [e3]; linarith
  split at h
  · cases h
  · simp only at h
    split at h
    · cases h
    · injection h with h; subst h
      have hx := exponent_nonneg (bn := s) (bd := s - d) (en := 1000000) (ed := w) (by omega) (by omega) (by omega) (by have := hw.1; omega)
      have h16 := regime (L := log (s / (s - d : Int))) hβ0 hβ1 hg
      have hu := power_low (bn := s) (bd := s - d) (en := 1000000) (ed := w) (by omega) (by omega) (by omega) (by omega) (by have := hw.1; omega)
        (by push_cast at h16 ⊢; exact h16)
      simp only [powerExponent] at hu
      refine part_low hb (expPart_pos hx) hl0 (hl1.trans (by norm_num)) ?_
      unfold loss
      push_cast at hu ⊢
      exact hu
end

section
variable {fb fw tb tw a r : Int}

theorem cross_up (hf : 0 < fb) (hfw : ValidWeight fw) (ht : 0 < tb) (htw : ValidWeight tw) (ha : 0 ≤ a)
    (h : calculateCrossConnectorReturn fb fw tb tw a = .ok r) :
    tb * exp (-((fw : ℝ) / tw * (log ((fb + a : Int) / fb) + eps))) ≤ (tb : ℝ) - r := by
  have hf' : (0 : ℝ) < fb := by exact_mod_cast hf
  have ht' : (0 : ℝ) < tb := by exact_mod_cast ht
  obtain ⟨hw1, hw2⟩ := weight_real hfw
  obtain ⟨hw3, hw4⟩ := weight_real htw
  have hL := ratio_log_nonneg hf (show fb ≤ fb + a by omega)
  have hε := eps_pos
  rw [cross_valid hf hfw ht htw] at h
  split at h
  · rename_i hw
    rw [if_neg (by omega)] at h
    injection h with h; subst h; subst hw
    have hfa : 0 < fb + a := by omega
    have hfa' : (0 : ℝ) < ((fb + a : Int) : ℝ) := by exact_mod_cast hfa
    rw [Int.fdiv_eq_ediv_of_nonneg _ hfa.le]
    have h1 := ediv_le_real (a := tb * a) hfa
    have h2 : exp (-((fw : ℝ) / fw * (log ((fb + a : Int) / fb) + eps))) ≤ fb / ((fb + a : Int) : ℝ) := by
      rw [div_self (by linarith), one_mul, neg_add, Real.exp_add, ← Real.log_inv, inv_div, Real.exp_log (by positivity)]
      have : exp (-eps) ≤ 1 := Real.exp_le_one_iff.mpr (by linarith)
      have h3 : 0 ≤ fb / ((fb + a : Int) : ℝ) := by positivity
      nlinarith
    have h3 := mul_le_mul_of_nonneg_left h2 ht'.le
    refine h3.trans ?_
    have e : (tb : ℝ) * (fb / ((fb + a : Int) : ℝ)) = tb - ((tb * a : Int) : ℝ) / ((fb + a : Int) : ℝ) := by push_cast; push_cast at hfa'; field_simp; ring
    linarith
  split at h
  · cases h
  · simp only at h
    split at h
    · cases h
    · injection h with h; subst h
      have hx := exponent_nonneg (bn := fb + a) (bd := fb) (en := fw) (ed := tw) (by omega) (by omega) (by have := hfw.1; omega) (by have := htw.1; omega)
      have hu := power_up (bn := fb + a) (bd := fb) (en := fw) (ed := tw) (by omega) (by omega) (by omega) (by have := hfw.1; omega) (by have := htw.1; omega)
      simp only [powerExponent] at hu
      refine part_up ht (expPart_pos hx) ?_
      unfold eps
      exact hu

theorem cross_low (hf : 0 < fb) (hfw : ValidWeight fw) (ht : 0 < tb) (htw : ValidWeight tw) (ha : 0 ≤ a)
    (h : calculateCrossConnectorReturn fb fw tb tw a = .ok r) (hg : exp ((fw : ℝ) / tw * log ((fb + a : Int) / fb)) ≤ 2 ^ 22) :
    (tb : ℝ) - tb * exp (-((fw : ℝ) / tw * log ((fb + a : Int) / fb))) * (1 + 2 * loss (fw / tw)) - 1 ≤ r := by
  have hf' : (0 : ℝ) < fb := by exact_mod_cast hf
  have ht' : (0 : ℝ) < tb := by exact_mod_cast ht
  obtain ⟨hw1, hw2⟩ := weight_real hfw
  obtain ⟨hw3, hw4⟩ := weight_real htw
  have hL := ratio_log_nonneg hf (show fb ≤ fb + a by omega)
  have hβ0 : (0 : ℝ) ≤ (fw : ℝ) / tw := by positivity
  have hβ1 : (fw : ℝ) / tw ≤ 1000000 := by rw [div_le_iff₀ (by linarith)]; nlinarith
  obtain ⟨hl0, hl1⟩ := loss_bounds hβ0 hβ1
  rw [cross_valid hf hfw ht htw] at h
  split at h
  · rename_i hw
    rw [if_neg (by omega)] at h
    injection h with h; subst h; subst hw
    have hfa : 0 < fb + a := by omega
    have hfa' : (0 : ℝ) < ((fb + a : Int) : ℝ) := by exact_mod_cast hfa
    rw [Int.fdiv_eq_ediv_of_nonneg _ hfa.le]
    have h1 := lt_ediv_real (a := tb * a) hfa
    rw [div_self (by linarith)] at hl0 ⊢
    rw [one_mul, ← Real.log_inv, inv_div, Real.exp_log (by positivity)]
    have e : (tb : ℝ) * (fb / ((fb + a : Int) : ℝ)) = tb - ((tb * a : Int) : ℝ) / ((fb + a : Int) : ℝ) := by push_cast; push_cast at hfa'; field_simp; ring
    have h3 : 0 ≤ (tb : ℝ) * (fb / ((fb + a : Int) : ℝ)) * (2 * loss 1) := by positivity
    rw [mul_add, mul_one]
    linarith
  split at h
  · cases h
  · simp only at h
    split at h
    · cases h
    · injection h with h; subst h
      have hx := exponent_nonneg (bn := fb + a) (bd := fb) (en := fw) (ed := tw) (by omega) (by omega) (by have := hfw.1; omega) (by have := htw.1; omega)
      have h16 := regime (L := log ((fb + a : Int) / fb)) hβ0 hβ1 hg
      have hu := power_low (bn := fb + a) (bd := fb) (en := fw) (ed := tw) (by omega) (by omega) (by omega) (by have := hfw.1; omega) (by have := htw.1; omega) h16
      simp only [powerExponent] at hu
      refine part_low ht (expPart_pos hx) hl0 (hl1.trans (by norm_num)) ?_
      unfold loss
      exact hu
end

end Verif.Formula
