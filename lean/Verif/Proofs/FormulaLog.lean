import Verif.Proofs.FormulaExp
import Mathlib.Analysis.SpecialFunctions.Log.Deriv
import Mathlib.Analysis.Calculus.Deriv.MeanValue
/-!
The two logarithms of the conversion formula never exceed the exact logarithm by more than a few units in the last place.
-/
namespace Verif.Formula
open Real

theorem Fr_pos : (0 : ℝ) < Fr := by unfold Fr; positivity

/-! ### `_general_log` -/

theorem ln2_le : (LN2_NUMERATOR : ℝ) / LN2_DENOMINATOR ≤ log 2 := by
  rw [Real.le_log_iff_exp_le (by norm_num)]
  have h : (LN2_NUMERATOR : ℝ) / LN2_DENOMINATOR ≤ 966106166171702452789019208761976767997145 / 2 ^ 140 := by
    unfold LN2_NUMERATOR LN2_DENOMINATOR; norm_num
  refine (Real.exp_le_exp.mpr h).trans ?_
  refine (Real.exp_bound' (n := 29) (by norm_num) (by norm_num) (by norm_num)).trans ?_
  simp only [Finset.sum_range_succ, Finset.sum_range_zero, Nat.factorial]
  norm_num

/-- Binary logarithm of a fixed-point number. -/
noncomputable def lg (x : Int) : ℝ := log (x / Fr) / log 2

theorem log2_pos : (0 : ℝ) < log 2 := Real.log_pos (by norm_num)

theorem lg_nonneg {x : Int} (h : FIXED_1 ≤ x) : 0 ≤ lg x := by
  have h' : Fr ≤ x := by rw [← F_cast]; exact_mod_cast h
  unfold lg
  refine div_nonneg (Real.log_nonneg ?_) log2_pos.le
  rw [le_div_iff₀ Fr_pos]; linarith

theorem lg_square {x : Int} (h : FIXED_1 ≤ x) : FIXED_1 ≤ x * x / FIXED_1 ∧ lg (x * x / FIXED_1) ≤ 2 * lg x := by
  have h1 : FIXED_1 ≤ x * x / FIXED_1 := by
    rw [Int.le_ediv_iff_mul_le F_pos]
    exact Int.mul_le_mul h h F_pos.le (by have := F_pos; omega)
  refine ⟨h1, ?_⟩
  have h0 := F_pos
  have h' : (0 : ℝ) < x := by exact_mod_cast (by omega : 0 < x)
  have h'' : (0 : ℝ) < ((x * x / FIXED_1 : Int) : ℝ) := by exact_mod_cast (by omega : 0 < x * x / FIXED_1)
  unfold lg
  rw [← mul_div_assoc]
  refine div_le_div_of_nonneg_right ?_ log2_pos.le
  have e : 2 * log ((x : ℝ) / Fr) = log ((x / Fr) ^ 2) := by rw [Real.log_pow]; norm_num
  rw [e]
  refine Real.log_le_log (div_pos h'' Fr_pos) ?_
  rw [div_le_iff₀ Fr_pos]
  refine (ediv_le_real F_pos).trans (le_of_eq ?_)
  rw [F_cast]
  push_cast
  have := Fr_pos.ne'
  field_simp

theorem lg_shift {x : Int} {n : Nat} (h : FIXED_1 * 2 ^ n ≤ x) : FIXED_1 ≤ x >>> n ∧ lg (x >>> n) ≤ lg x - n := by
  have h2 : (0 : Int) < 2 ^ n := by positivity
  have e : x >>> n = x / 2 ^ n := by rw [Int.shiftRight_eq_div_pow]; simp
  have h1 : FIXED_1 ≤ x >>> n := by rw [e]; exact (Int.le_ediv_iff_mul_le h2).mpr h
  refine ⟨h1, ?_⟩
  have h0 := F_pos
  have hx : 0 < x := by
    have : 0 < FIXED_1 * 2 ^ n := Int.mul_pos h0 h2
    omega
  have h' : (0 : ℝ) < x := by exact_mod_cast hx
  have h'' : (0 : ℝ) < ((x >>> n : Int) : ℝ) := by exact_mod_cast (by omega : 0 < x >>> n)
  unfold lg
  rw [div_le_iff₀ log2_pos, sub_mul, div_mul_cancel₀ _ log2_pos.ne', ← Real.log_pow, ← Real.log_div (div_pos h' Fr_pos).ne' (by positivity)]
  refine Real.log_le_log (div_pos h'' Fr_pos) ?_
  have : ((x >>> n : Int) : ℝ) ≤ x / 2 ^ n := by
    rw [e]; refine (ediv_le_real h2).trans (le_of_eq ?_); push_cast; rfl
  calc ((x >>> n : Int) : ℝ) / Fr ≤ x / 2 ^ n / Fr := div_le_div_of_nonneg_right this Fr_pos.le
    _ = _ := by rw [div_right_comm]

theorem generalLogLoop_le : ∀ (i : Nat) (x res : Int), FIXED_1 ≤ x → (generalLogLoop i x res : ℝ) ≤ res + 2 ^ i * lg x
  | 0, x, res, h => by
    have := lg_nonneg h
    simp only [generalLogLoop, pow_zero, one_mul]
    linarith
  | i + 1, x, res, h => by
    obtain ⟨h1, h2⟩ := lg_square h
    have hp : (0 : ℝ) < 2 ^ i := by positivity
    have hm : (2 : ℝ) ^ i * lg (x * x / FIXED_1) ≤ 2 ^ (i + 1) * lg x := by
      rw [pow_succ, mul_assoc]; exact mul_le_mul_of_nonneg_left h2 hp.le
    unfold generalLogLoop
    simp only
    split
    · rename_i hc
      obtain ⟨h3, h4⟩ := lg_shift (x := x * x / FIXED_1) (n := 1) (by
        have : FIXED_2 = FIXED_1 * 2 := by decide
        rw [pow_one]; omega)
      refine (generalLogLoop_le i _ _ h3).trans ?_
      have := mul_le_mul_of_nonneg_left h4 hp.le
      unfold ONE
      push_cast at this ⊢
      linarith
    · exact (generalLogLoop_le i _ _ h1).trans (by linarith)

theorem generalLog_le {x : Int} (h1 : FIXED_1 ≤ x) (h2 : x < 2 ^ 256) : (generalLog x : ℝ) ≤ Fr * log (x / Fr) := by
  -- the binary logarithm before the last multiplication
  have key : ∀ res : Int, 0 ≤ res → (res : ℝ) ≤ Fr * lg x → ((res * LN2_NUMERATOR / LN2_DENOMINATOR : Int) : ℝ) ≤ Fr * log (x / Fr) := by
    intro res hr hres
    refine (ediv_le_real (by decide)).trans ?_
    have hr' : (0 : ℝ) ≤ res := by exact_mod_cast hr
    push_cast
    rw [mul_div_assoc]
    calc (res : ℝ) * (LN2_NUMERATOR / LN2_DENOMINATOR) ≤ res * log 2 := mul_le_mul_of_nonneg_left ln2_le hr'
      _ ≤ Fr * lg x * log 2 := mul_le_mul_of_nonneg_right hres log2_pos.le
      _ = Fr * log (x / Fr) := by unfold lg; rw [mul_assoc, div_mul_cancel₀ _ log2_pos.ne']
  have tail : ∀ (y res : Int), FIXED_1 ≤ y → 0 ≤ res → (res : ℝ) + Fr * lg y ≤ Fr * lg x →
      (((if y > FIXED_1 then generalLogLoop MAX_PRECISION y res else res) * LN2_NUMERATOR / LN2_DENOMINATOR : Int) : ℝ) ≤ Fr * log (x / Fr) := by
    intro y res hy hr hle
    split
    · refine key _ (generalLogLoop_nonneg _ _ _ hr) ((generalLogLoop_le _ _ _ hy).trans ?_)
      have e : (2 : ℝ) ^ MAX_PRECISION = Fr := by unfold Fr MAX_PRECISION; rfl
      rw [e]; exact hle
    · refine key _ hr ?_
      have := mul_nonneg Fr_pos.le (lg_nonneg hy)
      linarith
  unfold generalLog
  simp only
  by_cases hc : x ≥ FIXED_2
  · simp only [if_pos hc]
    have hq0 : x / FIXED_1 ≥ 1 := by
      rw [ge_iff_le, Int.le_ediv_iff_mul_le F_pos]; omega
    have hq : floorLog2 (x / FIXED_1).toNat = Nat.log 2 (x / FIXED_1).toNat := by
      refine floorLog2_eq (by omega) ?_
      have : x / FIXED_1 ≤ x := Int.ediv_le_self _ (by have := F_pos; omega)
      omega
    rw [hq]
    generalize hn : Nat.log 2 (x / FIXED_1).toNat = n
    have hpow : 2 ^ n ≤ (x / FIXED_1).toNat := by rw [← hn]; exact Nat.pow_log_le_self 2 (by omega)
    have hpow' : ((2 : Int) ^ n) ≤ x / FIXED_1 := by
      have : ((2 ^ n : Nat) : Int) ≤ x / FIXED_1 := by omega
      push_cast at this; exact this
    have hx : FIXED_1 * 2 ^ n ≤ x := by
      have := (Int.le_ediv_iff_mul_le F_pos).mp hpow'
      rw [Int.mul_comm]; exact this
    obtain ⟨h3, h4⟩ := lg_shift hx
    refine tail _ _ h3 (Int.mul_nonneg (by omega) F_pos.le) ?_
    have := mul_le_mul_of_nonneg_left h4 Fr_pos.le
    push_cast
    rw [F_cast]
    linarith
  · simp only [if_neg hc]
    exact tail _ _ h1 (Int.le_refl 0) (by push_cast; linarith)

/-! ### The series of `ln (1 + u)` -/

/-- First `n` terms of the series of `ln (1 + u)`. -/
noncomputable def logSeries (n : Nat) (u : ℝ) : ℝ := ∑ k ∈ Finset.range n, (-1) ^ k * u ^ (k + 1) / (k + 1)

theorem logSeries_deriv (n : Nat) (u : ℝ) : HasDerivAt (logSeries n) (∑ k ∈ Finset.range n, (-u) ^ k) u := by
  unfold logSeries
  refine HasDerivAt.fun_sum fun k _ => ?_
  have h := ((hasDerivAt_pow (k + 1) u).const_mul ((-1 : ℝ) ^ k)).div_const ((k : ℝ) + 1)
  refine h.congr_deriv ?_
  have : (k : ℝ) + 1 ≠ 0 := by positivity
  rw [neg_pow u k]
  push_cast
  field_simp

theorem log_sub_series_deriv (n : Nat) {u : ℝ} (hu : 0 ≤ u) :
    HasDerivAt (fun u => log (1 + u) - logSeries n u) ((-u) ^ n / (1 + u)) u := by
  have h1 : (1 + u) ≠ 0 := by positivity
  have h := (((hasDerivAt_id u).const_add 1).log h1).sub (logSeries_deriv n u)
  refine h.congr_deriv ?_
  have g := mul_neg_geom_sum (-u) n
  rw [sub_neg_eq_add] at g
  simp only [id]
  field_simp
  linarith

theorem even_series_le {n : Nat} {u : ℝ} (hu : 0 ≤ u) : logSeries (2 * n) u ≤ log (1 + u) := by
  have hm : MonotoneOn (fun u => log (1 + u) - logSeries (2 * n) u) (Set.Ici 0) := by
    refine monotoneOn_of_deriv_nonneg (convex_Ici 0) ?_ ?_ ?_
    · exact fun x hx => (log_sub_series_deriv _ hx).continuousAt.continuousWithinAt
    · intro x hx
      rw [interior_Ici] at hx
      exact (log_sub_series_deriv _ (le_of_lt hx)).differentiableAt.differentiableWithinAt
    · intro x hx
      rw [interior_Ici] at hx
      rw [(log_sub_series_deriv _ (le_of_lt hx)).deriv]
      have hx' : 0 < x := hx
      have : 0 ≤ (-x) ^ (2 * n) := by rw [pow_mul]; positivity
      positivity
  have h := hm (Set.mem_Ici.mpr le_rfl) (Set.mem_Ici.mpr hu) hu
  simp only [add_zero, log_one] at h
  have h0 : logSeries (2 * n) 0 = 0 := by
    unfold logSeries; refine Finset.sum_eq_zero fun k _ => ?_; simp
  rw [h0] at h
  linarith

theorem odd_series_ge {n : Nat} {u : ℝ} (hu : 0 ≤ u) : log (1 + u) ≤ logSeries (2 * n + 1) u := by
  have hm : AntitoneOn (fun u => log (1 + u) - logSeries (2 * n + 1) u) (Set.Ici 0) := by
    refine antitoneOn_of_deriv_nonpos (convex_Ici 0) ?_ ?_ ?_
    · exact fun x hx => (log_sub_series_deriv _ hx).continuousAt.continuousWithinAt
    · intro x hx
      rw [interior_Ici] at hx
      exact (log_sub_series_deriv _ (le_of_lt hx)).differentiableAt.differentiableWithinAt
    · intro x hx
      rw [interior_Ici] at hx
      rw [(log_sub_series_deriv _ (le_of_lt hx)).deriv]
      have hx' : 0 < x := hx
      have : (-x) ^ (2 * n + 1) ≤ 0 := by
        rw [pow_succ, pow_mul]
        have : (0 : ℝ) ≤ ((-x) ^ 2) ^ n := by positivity
        nlinarith
      exact div_nonpos_of_nonpos_of_nonneg this (by positivity)
  have h := hm (Set.mem_Ici.mpr le_rfl) (Set.mem_Ici.mpr hu) hu
  simp only [add_zero, log_one] at h
  have h0 : logSeries (2 * n + 1) 0 = 0 := by
    unfold logSeries; refine Finset.sum_eq_zero fun k _ => ?_; simp
  rw [h0] at h
  linarith

end Verif.Formula
