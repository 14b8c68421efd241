import Verif.Proofs.FormulaLow
/-!
The power function against the exact real power, from both sides.
-/
namespace Verif.Formula
open Real

theorem expPart_le {x : Int} (hx : 0 ≤ x) : ((expPart x).1 : ℝ) ≤ 2 ^ (expPart x).2 * exp (x / Fr) := by
  unfold expPart
  split
  · rename_i h
    have := optimalExp_le hx h
    have e : (2 : ℝ) ^ MAX_PRECISION = Fr := by unfold Fr MAX_PRECISION; rfl
    simp only [e]; exact this
  · simp only
    have hp : findPosition x ≤ 127 := by
      rcases (findPosition_spec x) with h
      simp only at h
      omega
    generalize findPosition x = p at hp
    have hs : 0 ≤ x >>> (MAX_PRECISION - p) := shiftRight_nonneg hx _
    refine (generalExp_le hs p).trans ?_
    refine mul_le_mul_of_nonneg_left (Real.exp_le_exp.mpr ?_) (by positivity)
    rw [div_le_iff₀ (by positivity)]
    have e : x >>> (MAX_PRECISION - p) = x / 2 ^ (127 - p) := by
      rw [Int.shiftRight_eq_div_pow]; unfold MAX_PRECISION; simp
    rw [e]
    refine (ediv_le_real (by positivity)).trans (le_of_eq ?_)
    push_cast
    have e2 : Fr = 2 ^ (127 - p) * 2 ^ p := by unfold Fr; rw [← pow_add]; congr 1; omega
    rw [e2]
    field_simp

theorem base_bounds {bn bd : Int} (hd : 0 < bd) (hb : bd ≤ bn) : FIXED_1 ≤ bn * FIXED_1 / bd ∧
    fln (bn * FIXED_1 / bd) ≤ Fr * log (bn / bd) ∧ Fr * log (bn / bd) - 1 ≤ fln (bn * FIXED_1 / bd) := by
  have hF := Fr_pos
  have h := base_ge hd hb
  rw [Int.fdiv_eq_ediv_of_nonneg _ (by omega)] at h
  have hd' : (0 : ℝ) < bd := by exact_mod_cast hd
  have h1 : ((bn * FIXED_1 / bd : Int) : ℝ) ≤ bn * Fr / bd := by
    refine (ediv_le_real hd).trans (le_of_eq ?_); push_cast; rw [F_cast]
  have h2 : (bn : ℝ) * Fr / bd ≤ ((bn * FIXED_1 / bd : Int) : ℝ) + 1 := by
    have := lt_ediv_real (a := bn * FIXED_1) hd
    push_cast at this; rw [F_cast] at this; linarith
  have h3 := fln_div h h1 h2
  have e : (bn : ℝ) * Fr / bd / Fr = bn / bd := by field_simp
  rw [e] at h3
  exact ⟨h, h3⟩

theorem base_lt {bn bd : Int} (hd : 0 < bd) (hm : bn < 2 ^ 129) : bn * FIXED_1 / bd < 2 ^ 256 := by
  refine Int.ediv_lt_of_lt_mul hd ?_
  have e : FIXED_1 = 2 ^ 127 := by decide
  rw [e]
  have h1 : bn * 2 ^ 127 < 2 ^ 129 * 2 ^ 127 := by omega
  have h2 : (2 : Int) ^ 256 ≤ 2 ^ 256 * bd := by
    have : (1 : Int) ≤ bd := hd
    have := Int.mul_le_mul_of_nonneg_left this (show (0 : Int) ≤ 2 ^ 256 by positivity)
    omega
  omega

theorem baseLog_up {x : Int} (h1 : FIXED_1 ≤ x) (h2 : x < 2 ^ 256) : (baseLog x : ℝ) ≤ fln x + 5 := by
  unfold baseLog
  split
  · rename_i h; exact (optimalLog_bounds h1 h).1
  · have := generalLog_le h1 h2
    unfold fln; linarith

theorem baseLog_low {x : Int} (h1 : FIXED_1 ≤ x) (h2 : x < 2 ^ 256) : fln x - 1700 ≤ baseLog x := by
  unfold baseLog
  split
  · rename_i h; have := (optimalLog_bounds h1 h).2; linarith
  · exact generalLog_low h1 h2

/-- The exponent handed to the exponential. -/
def powerExponent (bn bd en ed : Int) : Int := baseLog (bn * FIXED_1 / bd) * en / ed

theorem powerExponent_up {bn bd en ed : Int} (hd : 0 < bd) (hb : bd ≤ bn) (hm : bn < 2 ^ 129) (hn : 0 ≤ en) (he : 0 < ed) :
    (powerExponent bn bd en ed : ℝ) ≤ (en : ℝ) / ed * (Fr * log (bn / bd) + 5) := by
  obtain ⟨h1, h2, _⟩ := base_bounds hd hb
  have h3 := baseLog_up h1 (base_lt hd hm)
  unfold powerExponent
  refine (ediv_le_real he).trans ?_
  have he' : (0 : ℝ) < ed := by exact_mod_cast he
  have hn' : (0 : ℝ) ≤ en := by exact_mod_cast hn
  push_cast
  rw [mul_div_assoc, mul_comm]
  exact mul_le_mul_of_nonneg_left (by linarith) (by positivity)

theorem powerExponent_low {bn bd en ed : Int} (hd : 0 < bd) (hb : bd ≤ bn) (hm : bn < 2 ^ 129) (hn : 0 ≤ en) (he : 0 < ed) :
    (en : ℝ) / ed * (Fr * log (bn / bd) - 1701) - 1 ≤ powerExponent bn bd en ed := by
  obtain ⟨h1, _, h2⟩ := base_bounds hd hb
  have h3 := baseLog_low h1 (base_lt hd hm)
  unfold powerExponent
  have h := lt_ediv_real (a := baseLog (bn * FIXED_1 / bd) * en) he
  refine le_trans ?_ h.le
  have he' : (0 : ℝ) < ed := by exact_mod_cast he
  have hn' : (0 : ℝ) ≤ en := by exact_mod_cast hn
  push_cast
  rw [mul_div_assoc, mul_comm (baseLog _ : ℝ)]
  have := mul_le_mul_of_nonneg_left (show Fr * log (bn / bd) - 1701 ≤ (baseLog (bn * FIXED_1 / bd) : ℝ) by linarith) (show 0 ≤ (en : ℝ) / ed by positivity)
  linarith

/-- The power is at most the exact power of a base `e^(5/2^127)` times larger. -/
theorem power_up {bn bd en ed : Int} (hd : 0 < bd) (hb : bd ≤ bn) (hm : bn < 2 ^ 129) (hn : 0 ≤ en) (he : 0 < ed) :
    let r := expPart (powerExponent bn bd en ed)
    (r.1 : ℝ) / 2 ^ r.2 ≤ exp ((en : ℝ) / ed * (log (bn / bd) + 5 / Fr)) := by
  have hF := Fr_pos
  have h0 : 0 ≤ powerExponent bn bd en ed := exponent_nonneg hd hb hn he
  simp only
  rw [div_le_iff₀ (by positivity), mul_comm]
  refine (expPart_le h0).trans (mul_le_mul_of_nonneg_left (Real.exp_le_exp.mpr ?_) (by positivity))
  rw [div_le_iff₀ hF]
  refine (powerExponent_up hd hb hm hn he).trans (le_of_eq ?_)
  field_simp

/-- Below exponent 16 the power is at least the exact power, up to a few units in the last place. -/
theorem power_low {bn bd en ed : Int} (hd : 0 < bd) (hb : bd ≤ bn) (hm : bn < 2 ^ 129) (hn : 0 ≤ en) (he : 0 < ed)
    (h16 : (en : ℝ) / ed * (Fr * log (bn / bd) + 5) < 16 * Fr) :
    let r := expPart (powerExponent bn bd en ed)
    exp ((en : ℝ) / ed * log (bn / bd)) * (1 - (1701 * ((en : ℝ) / ed) + 251) / Fr) ≤ (r.1 : ℝ) / 2 ^ r.2 := by
  have hF := Fr_pos
  have h0 : 0 ≤ powerExponent bn bd en ed := exponent_nonneg hd hb hn he
  have h1 : powerExponent bn bd en ed < OPT_EXP_MAX_VAL := by
    have := lt_of_le_of_lt (powerExponent_up hd hb hm hn he) h16
    have e : OPT_EXP_MAX_VAL = 16 * FIXED_1 := by decide
    rw [e]
    rw [← F_cast] at this
    exact_mod_cast this
  have h2 := optimalExp_low h0 h1
  have h3 := powerExponent_low hd hb hm hn he
  have he' : (0 : ℝ) < ed := by exact_mod_cast he
  have hn' : (0 : ℝ) ≤ en := by exact_mod_cast hn
  have hα : 0 ≤ (en : ℝ) / ed := by positivity
  simp only [expPart, if_pos h1]
  have e : (2 : ℝ) ^ MAX_PRECISION = Fr := by unfold Fr MAX_PRECISION; rfl
  rw [e, le_div_iff₀ hF]
  refine le_trans ?_ h2
  generalize powerExponent bn bd en ed = x at h0 h1 h3 ⊢
  generalize (en : ℝ) / ed = α at h3 hα ⊢
  generalize log ((bn : ℝ) / bd) = L at h3 ⊢
  have h4 : exp (α * L) * (1 - (1701 * α + 1) / Fr) ≤ exp (x / Fr) := by
    have h5 : α * L - (1701 * α + 1) / Fr ≤ x / Fr := by
      rw [le_div_iff₀ hF, sub_mul, div_mul_cancel₀ _ hF.ne']
      linarith
    refine le_trans ?_ (Real.exp_le_exp.mpr h5)
    rw [sub_eq_add_neg (α * L), Real.exp_add]
    refine mul_le_mul_of_nonneg_left ?_ (Real.exp_pos _).le
    have := Real.add_one_le_exp (-((1701 * α + 1) / Fr))
    linarith
  have h250 : (0 : ℝ) ≤ 1 - 250 / Fr := by rw [sub_nonneg, div_le_one hF]; unfold Fr; norm_num
  have hE := Real.exp_pos (α * L)
  calc exp (α * L) * (1 - (1701 * α + 251) / Fr) * Fr ≤ exp (α * L) * ((1 - (1701 * α + 1) / Fr) * (1 - 250 / Fr)) * Fr := by
        refine mul_le_mul_of_nonneg_right (mul_le_mul_of_nonneg_left ?_ hE.le) hF.le
        have e5 : (1 - (1701 * α + 1) / Fr) * (1 - 250 / Fr) = 1 - (1701 * α + 251) / Fr + (1701 * α + 1) / Fr * (250 / Fr) := by ring
        rw [e5]
        have : 0 ≤ (1701 * α + 1) / Fr * (250 / Fr) := by positivity
        linarith
    _ = Fr * (exp (α * L) * (1 - (1701 * α + 1) / Fr)) * (1 - 250 / Fr) := by ring
    _ ≤ Fr * exp (x / Fr) * (1 - 250 / Fr) := mul_le_mul_of_nonneg_right (mul_le_mul_of_nonneg_left h4 hF.le) h250

end Verif.Formula
