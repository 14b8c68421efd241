import Verif.Proofs.FormulaCurve
/-!
Trades so large that the formula is not accurate any more: the power is still more than four million.
-/
set_option autoImplicit false
namespace Verif.Formula
open Real

/-! ### `_general_exp` above 16 -/

theorem shift_mono {a b : Int} (h : a ≤ b) (p : Nat) : a >>> p ≤ b >>> p := by
  rw [Int.shiftRight_eq_div_pow, Int.shiftRight_eq_div_pow]
  exact Int.ediv_le_ediv (by positivity) h

theorem generalExp_fold_mono {x y : Int} {p : Nat} (hx : 0 ≤ x) (hxy : x ≤ y) : ∀ (cs : List Int), (∀ c ∈ cs, 0 ≤ c) →
    ∀ (s t : Int × Int), 0 ≤ s.1 → s.1 ≤ t.1 → s.2 ≤ t.2 →
    (cs.foldl (generalExpStep x p) s).2 ≤ (cs.foldl (generalExpStep y p) t).2 := by
  intro cs
  induction cs with
  | nil => intro _ s t _ _ h; exact h
  | cons c cs ih =>
    intro hc s t h0 h1 h2
    rw [List.foldl_cons, List.foldl_cons]
    have hz : 0 ≤ (s.1 * x) >>> p := shiftRight_nonneg (Int.mul_nonneg h0 hx) _
    have hm : (s.1 * x) >>> p ≤ (t.1 * y) >>> p := shift_mono (Int.mul_le_mul h1 hxy hx (h0.trans h1)) p
    refine ih (fun c hc' => hc c (by simp [hc'])) _ _ hz hm ?_
    have := Int.mul_le_mul_of_nonneg_right hm (hc c (by simp))
    show s.2 + _ ≤ t.2 + _
    omega

theorem generalExp_mono {x y : Int} {p : Nat} (hx : 0 ≤ x) (hxy : x ≤ y) : generalExp x p ≤ generalExp y p := by
  unfold generalExp
  have h := generalExp_fold_mono (p := p) hx hxy generalExpCoeffs (by decide +kernel) (x, 0) (y, 0) hx hxy (Int.le_refl 0)
  have := Int.ediv_le_ediv (show (0 : Int) < generalExpDen by decide +kernel) h
  omega

/-- At whole numbers the computation is exact. -/
theorem generalExp_whole_fold (k : Int) (p : Nat) : ∀ (cs : List Int) (z r : Int),
    (cs.foldl (generalExpStep (k * 2 ^ p) p) (z * 2 ^ p, r * 2 ^ p)).2 = (cs.foldl (generalExpStep k 0) (z, r)).2 * 2 ^ p := by
  intro cs
  induction cs with
  | nil => intro z r; rfl
  | cons c cs ih =>
    intro z r
    rw [List.foldl_cons, List.foldl_cons]
    have e : generalExpStep (k * 2 ^ p) p (z * 2 ^ p, r * 2 ^ p) c = (z * k * 2 ^ p, (r + z * k * c) * 2 ^ p) := by
      unfold generalExpStep
      have : (z * 2 ^ p * (k * 2 ^ p)) >>> p = z * k * 2 ^ p := by
        rw [Int.shiftRight_eq_div_pow, show z * 2 ^ p * (k * 2 ^ p) = z * k * 2 ^ p * 2 ^ p by ring]
        push_cast
        exact Int.mul_ediv_cancel _ (by positivity)
      simp only [this]
      congr 1; ring
    have e0 : generalExpStep k 0 (z, r) c = (z * k, r + z * k * c) := by
      unfold generalExpStep; simp
    rw [e, e0]
    exact ih _ _

theorem generalExp_16 (p : Nat) : 8885000 * 2 ^ p ≤ generalExp (16 * 2 ^ p) p := by
  unfold generalExp
  have h := generalExp_whole_fold 16 p generalExpCoeffs 16 0
  rw [zero_mul] at h
  rw [h]
  have hD : (0 : Int) < generalExpDen := by decide +kernel
  have hR : 8884983 * generalExpDen ≤ (generalExpCoeffs.foldl (generalExpStep 16 0) (16, 0)).2 := by decide +kernel
  have h1 : 8884983 * 2 ^ p ≤ (generalExpCoeffs.foldl (generalExpStep 16 0) (16, 0)).2 * 2 ^ p / generalExpDen := by
    rw [Int.le_ediv_iff_mul_le hD]
    calc 8884983 * 2 ^ p * generalExpDen = 8884983 * generalExpDen * 2 ^ p := by ring
      _ ≤ _ := Int.mul_le_mul_of_nonneg_right hR (by positivity)
  have e1 : ONE = 1 := rfl
  rw [e1]
  generalize (2 : Int) ^ p = P at *
  omega

/-- Above 16 the exponential yields more than eight million. -/
theorem expPart_large {x : Int} (hx : OPT_EXP_MAX_VAL ≤ x) : 8885000 * 2 ^ (expPart x).2 ≤ (expPart x).1 := by
  unfold expPart
  rw [if_neg (by omega)]
  simp only
  have hp : findPosition x ≤ 127 := by
    rcases findPosition_spec x with h | h
    · rw [h.1]; omega
    · exact h.2.1
  generalize findPosition x = p at hp
  refine (generalExp_16 p).trans (generalExp_mono (by positivity) ?_)
  have e : OPT_EXP_MAX_VAL >>> (MAX_PRECISION - p) = 16 * 2 ^ p := by
    rw [Int.shiftRight_eq_div_pow, show OPT_EXP_MAX_VAL = 16 * 2 ^ p * ((2 ^ (MAX_PRECISION - p) : Nat) : Int) by
      push_cast
      rw [mul_assoc, ← pow_add, show p + (MAX_PRECISION - p) = 127 by unfold MAX_PRECISION; omega]
      decide +kernel]
    exact Int.mul_ediv_cancel _ (by positivity)
  rw [← e]
  exact shift_mono hx _

/-! ### The power, beyond a factor of 2^22 -/

theorem power_large {bn bd en ed : Int} (hd : 0 < bd) (hb : bd ≤ bn) (hm : bn < 2 ^ 129) (hn : 0 ≤ en) (he : 0 < ed)
    (h6 : (en : ℝ) / ed ≤ 1000000) (hg : 2 ^ 22 ≤ exp ((en : ℝ) / ed * log (bn / bd))) :
    let r := expPart (powerExponent bn bd en ed)
    4100000 * 2 ^ r.2 ≤ r.1 := by
  simp only
  have hF := Fr_pos
  have h0 : 0 ≤ powerExponent bn bd en ed := exponent_nonneg hd hb hn he
  have hlow := powerExponent_low hd hb hm hn he
  have he' : (0 : ℝ) < ed := by exact_mod_cast he
  have hn' : (0 : ℝ) ≤ en := by exact_mod_cast hn
  have hα : 0 ≤ (en : ℝ) / ed := by positivity
  generalize powerExponent bn bd en ed = x at *
  by_cases hx : x < OPT_EXP_MAX_VAL
  · have h2 := optimalExp_low h0 hx
    unfold expPart
    rw [if_pos hx]
    simp only
    generalize (en : ℝ) / ed = α at *
    generalize log ((bn : ℝ) / bd) = L at *
    have hl := loss_bounds hα h6
    have h4 : exp (α * L) * (1 - (1701 * α + 1) / Fr) ≤ exp (x / Fr) := by
      have h5 : α * L - (1701 * α + 1) / Fr ≤ x / Fr := by
        rw [le_div_iff₀ hF, sub_mul, div_mul_cancel₀ _ hF.ne']
        linarith
      refine le_trans ?_ (Real.exp_le_exp.mpr h5)
      rw [sub_eq_add_neg (α * L), Real.exp_add]
      refine mul_le_mul_of_nonneg_left ?_ (Real.exp_pos _).le
      have := Real.add_one_le_exp (-((1701 * α + 1) / Fr))
      linarith
    have h5 : (1701 * α + 1) / Fr ≤ 1 / 2 ^ 96 := by
      refine le_trans ?_ hl.2
      unfold loss
      exact div_le_div_of_nonneg_right (by linarith) hF.le
    have h6 : (2 : ℝ) ^ 22 * (1 - 1 / 2 ^ 96) ≤ exp (x / Fr) :=
      (mul_le_mul hg (by linarith) (by norm_num) (Real.exp_pos _).le).trans h4
    have h250 : (1 : ℝ) - 1 / 2 ^ 96 ≤ 1 - 250 / Fr := by
      have : 250 / Fr ≤ 1 / 2 ^ 96 := by unfold Fr; norm_num
      linarith
    have h7 : Fr * ((2 : ℝ) ^ 22 * (1 - 1 / 2 ^ 96)) * (1 - 1 / 2 ^ 96) ≤ optimalExp x := by
      refine le_trans ?_ h2
      exact mul_le_mul (mul_le_mul_of_nonneg_left h6 hF.le) h250 (by norm_num) (by positivity)
    have h8 : (4100000 : ℝ) * 2 ^ 127 ≤ optimalExp x := le_trans (by unfold Fr; norm_num) h7
    have : (4100000 : Int) * 2 ^ 127 ≤ optimalExp x := by exact_mod_cast h8
    exact this
  · have := expPart_large (x := x) (by omega)
    refine le_trans ?_ this
    exact Int.mul_le_mul_of_nonneg_right (by omega) (by positivity)

section
variable {s b w d r : Int}

theorem purchase_large (hs : 0 < s) (hb : 0 < b) (hw : ValidWeight w) (hd : 0 ≤ d) (h : calculatePurchaseReturn s b w d = .ok r)
    (hg : 2 ^ 22 ≤ exp ((w : ℝ) / 1000000 * log ((d + b : Int) / b))) : 4000000 * s ≤ r := by
  have hb' : (0 : ℝ) < b := by exact_mod_cast hb
  obtain ⟨hw1, hw2⟩ := weight_real hw
  rw [purchase_valid hs hb hw] at h
  split at h
  · rename_i h0; subst h0
    rw [Int.zero_add, div_self hb'.ne', Real.log_one, mul_zero, Real.exp_zero] at hg
    norm_num at hg
  split at h
  · rename_i hw; injection h with h; subst h; subst hw
    have e : ((1000000 : Int) : ℝ) / 1000000 = 1 := by norm_num
    have hp : (0 : ℝ) < ((d + b : Int) : ℝ) / b := by
      have : (0 : ℝ) < ((d + b : Int) : ℝ) := by exact_mod_cast (by omega : 0 < d + b)
      positivity
    rw [e, one_mul, Real.exp_log hp, le_div_iff₀ hb'] at hg
    have hg : 2 ^ 22 * b ≤ d + b := by exact_mod_cast hg
    rw [Int.le_ediv_iff_mul_le hb]
    have : s * (4000000 * b) ≤ s * d := Int.mul_le_mul_of_nonneg_left (by omega) hs.le
    linarith [show 4000000 * s * b = s * (4000000 * b) by ring]
  split at h
  · cases h
  · injection h with h; subst h
    have hα1 : (w : ℝ) / 1000000 ≤ 1 := by rw [div_le_one (by norm_num)]; exact hw2
    have hu := power_large (bn := d + b) (en := w) (ed := 1000000) hb (by omega) (by omega) (by have := hw.1; omega) (by norm_num)
      (by push_cast; linarith) (by push_cast at hg ⊢; exact hg)
    simp only [powerExponent] at hu
    generalize expPart (baseLog ((d + b) * FIXED_1 / b) * w / 1000000) = q at hu ⊢
    have : s * 4100000 ≤ (s * q.1) >>> q.2 := by
      rw [Int.shiftRight_eq_div_pow, Int.le_ediv_iff_mul_le (by positivity)]
      push_cast
      rw [mul_assoc]
      exact Int.mul_le_mul_of_nonneg_left hu hs.le
    omega

/-- `balance - balance / ratio`, rounded down, for a ratio of four million or more. -/
theorem part_large {b R : Int} {p : Nat} (hb : 0 < b) (h : 4100000 * 2 ^ p ≤ R) :
    4000000 * (b - (b * R - b * 2 ^ p).fdiv R) ≤ b + 4000000 := by
  have hP : (0 : Int) < 2 ^ p := by positivity
  have hR : 0 < R := by omega
  have e : b * R - b * 2 ^ p = -(b * 2 ^ p) + b * R := by ring
  rw [Int.fdiv_eq_ediv_of_nonneg _ hR.le, e, Int.add_mul_ediv_right _ _ hR.ne']
  have h1 := Int.ediv_mul_le (-(b * 2 ^ p)) hR.ne'
  have h2 := Int.lt_ediv_add_one_mul_self (-(b * 2 ^ p)) hR
  generalize hq : -(b * 2 ^ p) / R = q at *
  have h3 : 4000000 * (b * 2 ^ p) ≤ b * R := by
    have := Int.mul_le_mul_of_nonneg_left h hb.le
    have h5 : 0 < b * 2 ^ p := by positivity
    linarith [show b * (4100000 * 2 ^ p) = 4100000 * (b * 2 ^ p) by ring]
  -- `-q * R < b * 2^p + R`
  by_contra hc
  have h4 : b ≤ 4000000 * (-q - 1) := by omega
  have h5 := Int.mul_le_mul_of_nonneg_right h4 hR.le
  have h6 : (-q - 1) * R < b * 2 ^ p := by linarith [show (q + 1) * R = -((-q - 1) * R) by ring]
  linarith [show 4000000 * (-q - 1) * R = 4000000 * ((-q - 1) * R) by ring]

theorem sale_large (hs : 0 < s) (hb : 0 < b) (hw : ValidWeight w) (hd : 0 ≤ d) (hds : d < s) (h : calculateSaleReturn s b w d = .ok r)
    (hg : 2 ^ 22 ≤ exp (1000000 / (w : ℝ) * log (s / (s - d : Int)))) : 4000000 * (b - r) ≤ b + 4000000 := by
  have hs' : (0 : ℝ) < s := by exact_mod_cast hs
  have hb' : (0 : ℝ) < b := by exact_mod_cast hb
  obtain ⟨hw1, hw2⟩ := weight_real hw
  have hβ0 : (0 : ℝ) ≤ 1000000 / w := by positivity
  have hβ1 : (1000000 : ℝ) / w ≤ 1000000 := by rw [div_le_iff₀ (by linarith)]; nlinarith
  rw [sale_valid hs hb hw hds.le] at h
  split at h
  · rename_i h0; subst h0
    rw [Int.sub_zero, div_self hs'.ne', Real.log_one, mul_zero, Real.exp_zero] at hg
    norm_num at hg
  split at h
  · omega
  split at h
  · rename_i hw; injection h with h; subst h; subst hw
    have hsd : 0 < s - d := by omega
    have hsd' : (0 : ℝ) < ((s - d : Int) : ℝ) := by exact_mod_cast hsd
    have e : 1000000 / ((1000000 : Int) : ℝ) = 1 := by norm_num
    rw [e, one_mul, Real.exp_log (by positivity), le_div_iff₀ hsd'] at hg
    have hg : 2 ^ 22 * (s - d) ≤ s := by exact_mod_cast hg
    have h2 := Int.lt_ediv_add_one_mul_self (b * d) hs
    generalize b * d / s = q at *
    by_contra hc
    have h4 : b ≤ 4000000 * (b - q - 1) := by omega
    have h5 := Int.mul_le_mul_of_nonneg_right h4 hs.le
    have h6 : (b - q - 1) * s < b * (s - d) := by linarith [show (b - q - 1) * s = b * s - (q + 1) * s by ring, show b * (s - d) = b * s - b * d by ring]
    have h7 : 4000000 * (b * (s - d)) ≤ b * s := by
      have := Int.mul_le_mul_of_nonneg_left (show 4000000 * (s - d) ≤ s by omega) hb.le
      linarith [show b * (4000000 * (s - d)) = 4000000 * (b * (s - d)) by ring]
    linarith [show 4000000 * (b - q - 1) * s = 4000000 * ((b - q - 1) * s) by ring]
  split at h
  · cases h
  · simp only at h
    split at h
    · cases h
    · injection h with h; subst h
      have hu := power_large (bn := s) (bd := s - d) (en := 1000000) (ed := w) (by omega) (by omega) (by omega) (by omega) (by have := hw.1; omega)
        (by push_cast; exact hβ1) (by push_cast at hg ⊢; exact hg)
      simp only [powerExponent] at hu
      exact part_large hb hu

end

section
variable {fb fw tb tw a r : Int}

theorem cross_large (hf : 0 < fb) (hfw : ValidWeight fw) (ht : 0 < tb) (htw : ValidWeight tw) (ha : 0 ≤ a)
    (h : calculateCrossConnectorReturn fb fw tb tw a = .ok r) (hg : 2 ^ 22 ≤ exp ((fw : ℝ) / tw * log ((fb + a : Int) / fb))) :
    4000000 * (tb - r) ≤ tb + 4000000 := by
  have hf' : (0 : ℝ) < fb := by exact_mod_cast hf
  obtain ⟨hw1, hw2⟩ := weight_real hfw
  obtain ⟨hw3, hw4⟩ := weight_real htw
  have hβ1 : (fw : ℝ) / tw ≤ 1000000 := by rw [div_le_iff₀ (by linarith)]; nlinarith
  rw [cross_valid hf hfw ht htw] at h
  split at h
  · rename_i hw
    rw [if_neg (by omega)] at h
    injection h with h; subst h; subst hw
    have hfa : 0 < fb + a := by omega
    have hfa' : (0 : ℝ) < ((fb + a : Int) : ℝ) := by exact_mod_cast hfa
    rw [div_self (by linarith), one_mul, Real.exp_log (by positivity), le_div_iff₀ hf'] at hg
    have hg : 2 ^ 22 * fb ≤ fb + a := by exact_mod_cast hg
    rw [Int.fdiv_eq_ediv_of_nonneg _ hfa.le]
    have h2 := Int.lt_ediv_add_one_mul_self (tb * a) hfa
    generalize tb * a / (fb + a) = q at *
    by_contra hc
    have h4 : tb ≤ 4000000 * (tb - q - 1) := by omega
    have h5 := Int.mul_le_mul_of_nonneg_right h4 hfa.le
    have h6 : (tb - q - 1) * (fb + a) < tb * fb := by
      linarith [show (tb - q - 1) * (fb + a) = tb * fb + tb * a - (q + 1) * (fb + a) by ring]
    have h7 : 4000000 * (tb * fb) ≤ tb * (fb + a) := by
      have := Int.mul_le_mul_of_nonneg_left (show 4000000 * fb ≤ fb + a by omega) ht.le
      linarith [show tb * (4000000 * fb) = 4000000 * (tb * fb) by ring]
    linarith [show 4000000 * (tb - q - 1) * (fb + a) = 4000000 * ((tb - q - 1) * (fb + a)) by ring]
  split at h
  · cases h
  · simp only at h
    split at h
    · cases h
    · injection h with h; subst h
      have hu := power_large (bn := fb + a) (bd := fb) (en := fw) (ed := tw) (by omega) (by omega) (by omega) (by have := hfw.1; omega) (by have := htw.1; omega) hβ1 hg
      simp only [powerExponent] at hu
      exact part_large ht hu

end
end Verif.Formula
