import Verif.Proofs.FormulaOptLog
/-!
Lower bounds: the general logarithm and the optimal exponential do not fall far below the exact values.
-/
namespace Verif.Formula
open Real

/-! ### `_general_log` from below -/

theorem ln2_ge : log 2 ≤ (LN2_NUMERATOR : ℝ) / LN2_DENOMINATOR + 13 / Fr := by
  rw [Real.log_le_iff_le_exp (by norm_num)]
  have h : (966106166171702452789019208761976768103640 : ℝ) / 2 ^ 140 ≤ (LN2_NUMERATOR : ℝ) / LN2_DENOMINATOR + 13 / Fr := by
    unfold LN2_NUMERATOR LN2_DENOMINATOR Fr; norm_num
  refine le_trans ?_ (Real.exp_le_exp.mpr h)
  refine le_trans ?_ (Real.sum_le_exp_of_nonneg (by norm_num) 36)
  simp only [Finset.sum_range_succ, Finset.sum_range_zero, Nat.factorial]
  norm_num

theorem lg_eq (x : Int) : Fr * lg x * log 2 = fln x := by
  unfold lg fln; rw [mul_assoc, div_mul_cancel₀ _ log2_pos.ne']

theorem lg_low {r : ℝ} {y : Int} (hy : FIXED_1 ≤ y) (h1 : (y : ℝ) ≤ r) (h2 : r ≤ y + 1) :
    log (r / Fr) / log 2 - 1 / (Fr * log 2) ≤ lg y := by
  have h := (fln_div hy h1 h2).2
  have hl := log2_pos
  have hF := Fr_pos
  unfold fln at h
  unfold lg
  rw [← div_div, ← sub_div]
  refine div_le_div_of_nonneg_right ?_ hl.le
  have : Fr * (log (r / Fr) - 1 / Fr) ≤ Fr * log (y / Fr) := by
    rw [mul_sub, mul_one_div_cancel hF.ne']; linarith
  exact le_of_mul_le_mul_left this hF

theorem lg_square_low {x : Int} (h : FIXED_1 ≤ x) : 2 * lg x - 1 / (Fr * log 2) ≤ lg (x * x / FIXED_1) := by
  have hF := Fr_pos
  have h1 : ((x * x / FIXED_1 : Int) : ℝ) ≤ x * x / Fr := by
    refine (ediv_le_real F_pos).trans (le_of_eq ?_); push_cast; rw [F_cast]
  have h2 : (x : ℝ) * x / Fr ≤ ((x * x / FIXED_1 : Int) : ℝ) + 1 := by
    have := lt_ediv_real (a := x * x) F_pos
    push_cast at this; rw [F_cast] at this; linarith
  refine le_trans (le_of_eq ?_) (lg_low (lg_square h).1 h1 h2)
  congr 1
  unfold lg
  rw [← mul_div_assoc]
  congr 1
  have e : 2 * log ((x : ℝ) / Fr) = log ((x / Fr) ^ 2) := by rw [Real.log_pow]; norm_num
  rw [e]; congr 1; field_simp

theorem lg_shift_low {x : Int} {n : Nat} (h : FIXED_1 * 2 ^ n ≤ x) : lg x - n - 1 / (Fr * log 2) ≤ lg (x >>> n) := by
  have hF := Fr_pos
  have h2 : (0 : Int) < 2 ^ n := by positivity
  have hx : FIXED_1 ≤ x := by
    have : (1 : Int) ≤ 2 ^ n := by omega
    have := Int.mul_le_mul_of_nonneg_left this F_pos.le
    omega
  have hx0 := real_pos_of_ge hx
  have e : x >>> n = x / 2 ^ n := by rw [Int.shiftRight_eq_div_pow]; simp
  have h3 : ((x >>> n : Int) : ℝ) ≤ x / 2 ^ n := by
    rw [e]; refine (ediv_le_real h2).trans (le_of_eq ?_); push_cast; rfl
  have h4 : (x : ℝ) / 2 ^ n ≤ ((x >>> n : Int) : ℝ) + 1 := by
    have := lt_ediv_real (a := x) h2
    rw [← e] at this; push_cast at this; linarith
  refine le_trans (le_of_eq ?_) (lg_low (lg_shift h).1 h3 h4)
  congr 1
  unfold lg
  rw [div_right_comm, Real.log_div (div_pos hx0 hF).ne' (by positivity), Real.log_pow, sub_div, mul_div_assoc, div_self log2_pos.ne', mul_one]

theorem lg_le_one {x : Int} (h : FIXED_1 ≤ x) (h2 : x < FIXED_2) : lg x ≤ 1 := by
  unfold lg
  rw [div_le_one log2_pos]
  refine Real.log_le_log (div_pos (real_pos_of_ge h) Fr_pos) ?_
  rw [div_le_iff₀ Fr_pos, ← F_cast]
  have : FIXED_2 = 2 * FIXED_1 := by decide
  exact_mod_cast (by omega : x ≤ 2 * FIXED_1)

theorem generalLogLoop_low : ∀ (i : Nat) (x res : Int), FIXED_1 ≤ x → x < FIXED_2 →
    (res : ℝ) + 2 ^ i * lg x - 2 * (1 / (Fr * log 2)) * (2 ^ i - 1) - 1 ≤ generalLogLoop i x res
  | 0, x, res, h, h2 => by
    have := lg_le_one h h2
    simp only [generalLogLoop, pow_zero, one_mul]
    linarith
  | i + 1, x, res, h, hx2 => by
    have hc0 : 0 ≤ 1 / (Fr * log 2) := by have := Fr_pos; have := log2_pos; positivity
    have h1 := (lg_square h).1
    have h2 := lg_square_low h
    generalize hc : 1 / (Fr * log 2) = c at h2 hc0
    have hp : (0 : ℝ) < 2 ^ i := by positivity
    have hm := mul_le_mul_of_nonneg_left h2 hp.le
    have e2 : FIXED_2 = FIXED_1 * 2 := by decide
    unfold generalLogLoop
    simp only
    split
    · rename_i hcx
      have hs : FIXED_1 * 2 ^ 1 ≤ x * x / FIXED_1 := by rw [pow_one]; omega
      have h3 := (lg_shift hs).1
      have h4 := lg_shift_low hs
      rw [hc] at h4
      have hlt : (x * x / FIXED_1) >>> 1 < FIXED_2 := by
        have h5 : x * x < FIXED_2 * FIXED_2 := by
          have := F_pos
          exact mul_lt_mul'' hx2 hx2 (by omega) (by omega)
        have h6 : x * x / FIXED_1 < FIXED_2 * 2 := by
          refine Int.ediv_lt_of_lt_mul F_pos ?_
          have : FIXED_2 * 2 * FIXED_1 = FIXED_2 * FIXED_2 := by decide
          omega
        rw [Int.shiftRight_eq_div_pow]
        simp only [pow_one, Nat.cast_ofNat]
        omega
      have ih := generalLogLoop_low i _ (res + ONE * 2 ^ i) h3 hlt
      rw [hc] at ih
      refine le_trans ?_ ih
      have := mul_le_mul_of_nonneg_left h4 hp.le
      unfold ONE
      push_cast at this ⊢
      rw [pow_succ]
      nlinarith
    · rename_i hcx
      have ih := generalLogLoop_low i _ res h1 (by omega)
      rw [hc] at ih
      refine le_trans ?_ ih
      rw [pow_succ]
      nlinarith

theorem log2_bounds : (1 / 2 : ℝ) ≤ log 2 ∧ log 2 ≤ 1 := by
  constructor
  · have := Real.one_sub_inv_le_log_of_pos (x := 2) (by norm_num); norm_num at this ⊢; linarith
  · have := Real.log_le_sub_one_of_pos (x := 2) (by norm_num); linarith

theorem generalLog_low {x : Int} (h1 : FIXED_1 ≤ x) (h2 : x < 2 ^ 256) : fln x - 1700 ≤ generalLog x := by
  have hF := Fr_pos
  obtain ⟨l1, l2⟩ := log2_bounds
  have hlg : lg x ≤ 129 := by
    unfold lg
    rw [div_le_iff₀ log2_pos]
    have e : (129 : ℝ) * log 2 = log (2 ^ 129) := by rw [Real.log_pow]; norm_num
    rw [e]
    refine Real.log_le_log (div_pos (real_pos_of_ge h1) hF) ?_
    rw [div_le_iff₀ hF]
    have : (x : ℝ) ≤ 2 ^ 256 := by exact_mod_cast h2.le
    refine this.trans (le_of_eq ?_)
    unfold Fr; norm_num
  have hlg0 := lg_nonneg h1
  have hc : Fr * (1 / (Fr * log 2)) ≤ 2 := by
    rw [mul_one_div, div_mul_eq_div_div, div_self hF.ne', div_le_iff₀ log2_pos]; linarith
  have key : ∀ res : Int, Fr * lg x - 7 ≤ res → fln x - 1700 ≤ ((res * LN2_NUMERATOR / LN2_DENOMINATOR : Int) : ℝ) := by
    intro res hres
    have h := lt_ediv_real (a := res * LN2_NUMERATOR) (b := LN2_DENOMINATOR) (by decide)
    refine le_trans ?_ h.le
    push_cast
    rw [mul_div_assoc]
    have hq1 := ln2_ge
    have hq2 := ln2_le
    generalize (LN2_NUMERATOR : ℝ) / LN2_DENOMINATOR = q at hq1 hq2
    have hq0 : 0 ≤ q := by
      have : (13 : ℝ) / Fr ≤ 1 / 4 := by rw [div_le_iff₀ hF]; unfold Fr; norm_num
      linarith
    have a1 : (Fr * lg x - 7) * q ≤ res * q := mul_le_mul_of_nonneg_right hres hq0
    have a2 : Fr * lg x * (log 2 - 13 / Fr) ≤ Fr * lg x * q := mul_le_mul_of_nonneg_left (by linarith) (by positivity)
    have a3 : Fr * lg x * (13 / Fr) = 13 * lg x := by field_simp
    have a4 := lg_eq x
    have a5 : Fr * lg x * (log 2 - 13 / Fr) = fln x - 13 * lg x := by rw [mul_sub, a4, a3]
    nlinarith
  have tail : ∀ (y res : Int), FIXED_1 ≤ y → y < FIXED_2 → Fr * lg x - 2 ≤ (res : ℝ) + Fr * lg y →
      fln x - 1700 ≤ (((if y > FIXED_1 then generalLogLoop MAX_PRECISION y res else res) * LN2_NUMERATOR / LN2_DENOMINATOR : Int) : ℝ) := by
    intro y res hy hy2 hle
    split
    · refine key _ (le_trans ?_ (generalLogLoop_low _ _ _ hy hy2))
      have e : (2 : ℝ) ^ MAX_PRECISION = Fr := by unfold Fr MAX_PRECISION; rfl
      rw [e]
      have : 0 ≤ 1 / (Fr * log 2) := by have := log2_pos; positivity
      nlinarith
    · rename_i hyF
      have : y = FIXED_1 := by omega
      have e0 : lg y = 0 := by unfold lg; rw [this, F_cast, div_self hF.ne', Real.log_one, zero_div]
      rw [e0] at hle
      refine key _ ?_
      linarith
  unfold generalLog
  simp only
  by_cases hcx : x ≥ FIXED_2
  · simp only [if_pos hcx]
    have hq0 : x / FIXED_1 ≥ 1 := by
      rw [ge_iff_le, Int.le_ediv_iff_mul_le F_pos]; omega
    have hq : floorLog2 (x / FIXED_1).toNat = Nat.log 2 (x / FIXED_1).toNat := by
      refine floorLog2_eq (by omega) ?_
      have : x / FIXED_1 ≤ x := Int.ediv_le_self _ (by have := F_pos; omega)
      omega
    rw [hq]
    generalize hn : Nat.log 2 (x / FIXED_1).toNat = n
    have hpow : 2 ^ n ≤ (x / FIXED_1).toNat := by rw [← hn]; exact Nat.pow_log_le_self 2 (by omega)
    have hpow2 : (x / FIXED_1).toNat < 2 ^ (n + 1) := by rw [← hn]; exact Nat.lt_pow_succ_log_self (by norm_num) _
    have hpow' : ((2 : Int) ^ n) ≤ x / FIXED_1 := by
      have : ((2 ^ n : Nat) : Int) ≤ x / FIXED_1 := by omega
      push_cast at this; exact this
    have hpow2' : x / FIXED_1 < (2 : Int) ^ (n + 1) := by
      have : x / FIXED_1 < ((2 ^ (n + 1) : Nat) : Int) := by omega
      push_cast at this; exact this
    have hx : FIXED_1 * 2 ^ n ≤ x := by
      have := (Int.le_ediv_iff_mul_le F_pos).mp hpow'
      rw [Int.mul_comm]; exact this
    have hx2 : x < FIXED_2 * 2 ^ n := by
      have h := Int.lt_mul_of_ediv_lt F_pos hpow2'
      have e : FIXED_2 * 2 ^ n = 2 ^ (n + 1) * FIXED_1 := by
        rw [show FIXED_2 = 2 * FIXED_1 by decide, pow_succ]; ring
      omega
    have hlt : x >>> n < FIXED_2 := by
      rw [Int.shiftRight_eq_div_pow]
      refine Int.ediv_lt_of_lt_mul (by positivity) ?_
      push_cast; exact hx2
    refine tail _ _ (lg_shift hx).1 hlt ?_
    have := mul_le_mul_of_nonneg_left (lg_shift_low hx) hF.le
    push_cast
    rw [F_cast]
    nlinarith
  · simp only [if_neg hcx]
    exact tail _ _ h1 (by omega) (by push_cast; linarith)

/-! ### `_optimal_exp` from below -/

theorem taylor_ge {x Q D : Int} (hQ : 0 < Q) (hx : 0 ≤ x) (hx8 : 8 * x ≤ Q) (hD0 : 0 < D) : ∀ (cs : List Int) (k : Nat), Facts D (k + 1) cs → (∀ c ∈ cs, 0 ≤ c) →
    ∀ (z res : Int), 0 ≤ z → (z : ℝ) ≤ Q → Q * ((x : ℝ) / Q) ^ k - 2 ≤ z →
    res + D * Q * ∑ i ∈ Finset.range cs.length, ((x : ℝ) / Q) ^ (k + 1 + i) / (k + 1 + i).factorial - 2 * (cs.sum : ℝ) ≤
      (((cs.foldl (taylorStep x Q) (z, res)).2 : Int) : ℝ)
  | [], _, _, _, z, res, _, _, _ => by simp
  | c :: cs, k, hf, hcs, z, res, hz, hzQ, hle => by
    obtain ⟨hc, hf⟩ := hf
    have hQ' : (0 : ℝ) < Q := by exact_mod_cast hQ
    have hx' : (0 : ℝ) ≤ x := by exact_mod_cast hx
    have hx8' : 8 * (x : ℝ) ≤ Q := by exact_mod_cast hx8
    have hz' : (0 : ℝ) ≤ z := by exact_mod_cast hz
    have hu : 0 ≤ (x : ℝ) / Q := by positivity
    have hu1 : (x : ℝ) / Q ≤ 1 / 8 := by rw [div_le_iff₀ hQ']; linarith
    have hz1 : 0 ≤ z * x / Q := Int.ediv_nonneg (Int.mul_nonneg hz hx) (by omega)
    have hzQ1 : ((z * x / Q : Int) : ℝ) ≤ Q := by
      refine (ediv_le_real hQ).trans ?_
      push_cast
      rw [div_le_iff₀ hQ']
      nlinarith
    have hle1 : Q * ((x : ℝ) / Q) ^ (k + 1) - 2 ≤ ((z * x / Q : Int) : ℝ) := by
      have h := lt_ediv_real (a := z * x) hQ
      push_cast at h
      have e : (z : ℝ) * x / Q = z * (x / Q) := by ring
      have h2 : (Q * ((x : ℝ) / Q) ^ k - 2) * (x / Q) ≤ z * (x / Q) := mul_le_mul_of_nonneg_right hle hu
      rw [pow_succ]
      nlinarith
    have hD : (D : ℝ) = c * (k + 1).factorial := by exact_mod_cast hc.symm
    have hc0 : (0 : ℝ) ≤ c := by exact_mod_cast hcs c List.mem_cons_self
    have ih := taylor_ge hQ hx hx8 hD0 cs (k + 1) hf (fun c h => hcs c (List.mem_cons_of_mem _ h)) (z * x / Q) (res + z * x / Q * c) hz1 hzQ1 hle1
    have es : taylorStep x Q (z, res) c = (z * x / Q, res + z * x / Q * c) := rfl
    rw [List.foldl_cons, es]
    refine le_trans ?_ ih
    rw [List.length_cons, Finset.sum_range_succ', List.sum_cons]
    have hf0 : (0 : ℝ) < ((k + 1).factorial : ℝ) := by exact_mod_cast Nat.factorial_pos _
    have e : ∑ i ∈ Finset.range cs.length, ((x : ℝ) / Q) ^ (k + 1 + (i + 1)) / (k + 1 + (i + 1)).factorial =
        ∑ i ∈ Finset.range cs.length, ((x : ℝ) / Q) ^ (k + 1 + 1 + i) / (k + 1 + 1 + i).factorial :=
      Finset.sum_congr rfl fun i _ => by rw [show k + 1 + (i + 1) = k + 1 + 1 + i by omega]
    rw [e, Nat.add_zero, mul_add]
    have h2 : D * Q * (((x : ℝ) / Q) ^ (k + 1) / (k + 1).factorial) - 2 * c ≤ ((z * x / Q : Int) : ℝ) * c := by
      have e3 : D * Q * (((x : ℝ) / Q) ^ (k + 1) / (k + 1).factorial) = Q * ((x : ℝ) / Q) ^ (k + 1) * c := by rw [hD]; field_simp
      rw [e3]
      have := mul_le_mul_of_nonneg_right hle1 hc0
      linarith
    push_cast at h2 ⊢
    linarith

theorem optExp_sum : 4 * optExpCoeffs.sum ≤ 3 * optExpDen := by decide +kernel

theorem optExpTaylor_ge {y : Int} (h0 : 0 ≤ y) (h8 : y < optExpMod) :
    Fr * exp (y / Fr) - 3 ≤ (((optExpCoeffs.foldl (optExpLoStep y) (y, 0)).2 / optExpDen + y + FIXED_1 : Int) : ℝ) := by
  have hF := Fr_pos
  have hm : 8 * optExpMod = FIXED_1 := by decide
  have hD := optExpDen_pos
  have hD' : (0 : ℝ) < optExpDen := by exact_mod_cast hD
  have h0' : (0 : ℝ) ≤ y := by exact_mod_cast h0
  have hv0 : 0 ≤ (y : ℝ) / Fr := by positivity
  have h := taylor_ge (x := y) F_pos h0 (by omega) hD optExpCoeffs 1 optExp_facts optExpCoeffs_nonneg y 0 h0
    (by rw [F_cast]; have : (y : ℝ) ≤ FIXED_1 := by exact_mod_cast (by omega : y ≤ FIXED_1)
        rwa [F_cast] at this)
    (by rw [F_cast, pow_one, mul_div_cancel₀ _ hF.ne']; linarith)
  have e : optExpLoStep y = taylorStep y FIXED_1 := rfl
  rw [e]
  generalize (optExpCoeffs.foldl (taylorStep y FIXED_1) (y, 0)).2 = r at h
  have hv1 : (y : ℝ) / Fr ≤ 1 / 8 := by
    rw [div_le_iff₀ hF, ← F_cast, ← hm]
    have : (y : ℝ) ≤ optExpMod := by exact_mod_cast h8.le
    push_cast; linarith
  have hb := Real.exp_bound' hv0 (hv1.trans (by norm_num)) (n := 21) (by norm_num)
  rw [F_cast] at h
  obtain ⟨v, hv⟩ : ∃ v, v = (y : ℝ) / Fr := ⟨_, rfl⟩
  have hy : (y : ℝ) = Fr * v := by rw [hv, mul_div_cancel₀ _ hF.ne']
  push_cast
  rw [← hv] at h hb hv0 hv1 ⊢
  rw [F_cast, hy]
  have el : optExpCoeffs.length = 19 := rfl
  rw [el] at h
  rw [Finset.sum_range_succ', Finset.sum_range_succ'] at hb
  simp only [zero_add, pow_one, pow_zero, Nat.factorial_one, Nat.factorial_zero, Nat.cast_one, div_one] at hb
  have e2 : ∑ i ∈ Finset.range 19, v ^ (1 + 1 + i) / (1 + 1 + i).factorial = ∑ i ∈ Finset.range 19, v ^ (i + 1 + 1) / (i + 1 + 1).factorial :=
    Finset.sum_congr rfl fun i _ => by rw [show 1 + 1 + i = i + 1 + 1 by omega]
  rw [e2] at h
  generalize (∑ i ∈ Finset.range 19, v ^ (i + 1 + 1) / ((i + 1 + 1).factorial : ℝ)) = S at h hb
  have hs : (optExpCoeffs.sum : ℝ) ≤ 3 / 4 * optExpDen := by
    have : (4 : ℝ) * optExpCoeffs.sum ≤ 3 * optExpDen := by exact_mod_cast optExp_sum
    linarith
  have h3 : Fr * S - 3 / 2 - 1 ≤ ((r / optExpDen : Int) : ℝ) := by
    have h4 := lt_ediv_real (a := r) hD
    have h5 : Fr * S - 3 / 2 ≤ r / optExpDen := by
      rw [le_div_iff₀ hD']
      rw [Int.cast_zero] at h
      nlinarith
    linarith
  have h6 : v ^ 21 ≤ (1 / 8) ^ 21 := pow_le_pow_left₀ hv0 hv1 _
  have h7 : v ^ 21 * (((21 : Nat) : ℝ) + 1) / (((21).factorial : ℝ) * ((21 : Nat) : ℝ)) ≤ 1 / 2 / Fr := by
    calc v ^ 21 * (((21 : Nat) : ℝ) + 1) / (((21).factorial : ℝ) * ((21 : Nat) : ℝ)) ≤ (1 / 8) ^ 21 * (((21 : Nat) : ℝ) + 1) / (((21).factorial : ℝ) * ((21 : Nat) : ℝ)) :=
          div_le_div_of_nonneg_right (mul_le_mul_of_nonneg_right h6 (by positivity)) (by positivity)
      _ ≤ 1 / 2 / Fr := by unfold Fr; simp only [Nat.factorial]; norm_num
  have h8 := mul_le_mul_of_nonneg_left (hb.trans (add_le_add_right h7 _)) hF.le
  have h9 : Fr * (1 / 2 / Fr) = 1 / 2 := by field_simp
  rw [mul_add, mul_add, mul_add, h9, mul_one] at h8
  linarith

/-- How far each factor of `_optimal_exp` may fall short, in units of the last place relative to 1. -/
def expLoss (t : Int × Int × Int) : Nat := if t.1 = 2 ^ 130 then 231 else 1

theorem expEighth_ge : exp (1 / 8) ≤ ((expEighth + 2 : Nat) : ℝ) / 2 ^ 220 := by
  refine (Real.exp_bound' (x := 1 / 8) (by norm_num) (by norm_num) (n := 36) (by norm_num)).trans ?_
  simp only [Finset.sum_range_succ, Finset.sum_range_zero, Nat.factorial, expEighth]
  norm_num

theorem optExpHi_table_low : ∀ t ∈ optExpHi, ∃ k < 7, t.1 = 2 ^ (124 + k) ∧ t.2.2 ≤ t.2.1 ∧ 0 < t.2.2 ∧
    ((expEighth + 2 : Nat) : Int) ^ (2 ^ k) * t.2.2 * (FIXED_1 - expLoss t) ≤ t.2.1 * FIXED_1 * 2 ^ (220 * 2 ^ k) := by decide +kernel

theorem optExpHi_factor_low {t : Int × Int × Int} (ht : t ∈ optExpHi) : exp (t.1 / Fr) * (1 - expLoss t / Fr) ≤ (t.2.1 : ℝ) / t.2.2 := by
  obtain ⟨k, _, h1, _, h2, h3⟩ := optExpHi_table_low t ht
  have hF := Fr_pos
  have h2' : (0 : ℝ) < t.2.2 := by exact_mod_cast h2
  have e : exp ((t.1 : ℝ) / Fr) = exp (1 / 8) ^ (2 ^ k) := by
    rw [← Real.exp_nat_mul, h1]
    congr 1
    push_cast
    unfold Fr
    rw [pow_add]
    field_simp
    norm_num
  have hl : (expLoss t : ℝ) ≤ Fr := by
    unfold expLoss Fr; split <;> norm_num
  have h4 : exp (1 / 8) ^ (2 ^ k) ≤ (((expEighth + 2 : Nat) : ℝ) / 2 ^ 220) ^ (2 ^ k) :=
    pow_le_pow_left₀ (Real.exp_pos _).le expEighth_ge _
  have h5 : 0 ≤ 1 - (expLoss t : ℝ) / Fr := by
    rw [sub_nonneg, div_le_one hF]; exact hl
  rw [e, le_div_iff₀ h2']
  refine (mul_le_mul_of_nonneg_right (mul_le_mul_of_nonneg_right h4 h5) h2'.le).trans ?_
  rw [div_pow, ← pow_mul]
  have h6 : (((expEighth + 2 : Nat) : ℝ)) ^ (2 ^ k) * t.2.2 * (Fr - expLoss t) ≤ t.2.1 * Fr * 2 ^ (220 * 2 ^ k) := by
    rw [← F_cast]; exact_mod_cast h3
  have hp : (0 : ℝ) < 2 ^ (220 * 2 ^ k) := by positivity
  generalize (((expEighth + 2 : Nat) : ℝ)) ^ (2 ^ k) = A at h6 ⊢
  generalize (2 : ℝ) ^ (220 * 2 ^ k) = B at h6 hp ⊢
  have e2 : A / B * (1 - (expLoss t : ℝ) / Fr) * t.2.2 = A * t.2.2 * (Fr - expLoss t) / (Fr * B) := by field_simp
  rw [e2, div_le_iff₀ (by positivity)]
  linarith

theorem optExpHi_fold_ge {x : Int} : ∀ (l : List (Int × Int × Int)), (∀ t ∈ l, t ∈ optExpHi) → ∀ res : Int, FIXED_1 ≤ res →
    ((l.map fun t => expLoss t + 1).sum : ℝ) ≤ Fr →
    (res : ℝ) * exp (bits x l / Fr) * (1 - ((l.map fun t => expLoss t + 1).sum : ℝ) / Fr) ≤ ((l.foldl (optExpHiStep x) res : Int) : ℝ)
  | [], _, res, _, _ => by simp [bits]
  | t :: l, hl, res, h0, hs => by
    have ht := hl t List.mem_cons_self
    obtain ⟨_, _, hbit, h1, h2, _⟩ := optExpHi_table_low t ht
    have hf := optExpHi_factor_low ht
    have hF := Fr_pos
    have h2' : (0 : ℝ) < t.2.2 := by exact_mod_cast h2
    have h0' := real_pos_of_ge h0
    have h0F := Fr_le h0
    have eb : bits x (t :: l) = t.1 * (x / t.1 % 2) + bits x l := by simp [bits]
    rw [List.map_cons, List.sum_cons] at hs ⊢
    rw [List.foldl_cons, eb]
    have ih := fun res h h' => optExpHi_fold_ge (x := x) l (fun t h => hl t (List.mem_cons_of_mem _ h)) res h h'
    generalize (l.map fun t => expLoss t + 1).sum = N at hs ih ⊢
    push_cast at hs ⊢
    have hs0 : (0 : ℝ) ≤ (N : ℝ) := by positivity
    have hk0 : (0 : ℝ) ≤ (expLoss t : ℝ) := by positivity
    generalize (N : ℝ) = K at hs hs0 ih ⊢
    have hK : 0 ≤ 1 - K / Fr := by rw [sub_nonneg, div_le_one hF]; linarith
    have hE := Real.exp_pos ((bits x l : ℝ) / Fr)
    by_cases hb : x / t.1 % 2 = 1
    · have es : optExpHiStep x res t = res * t.2.1 / t.2.2 := by unfold optExpHiStep; rw [if_pos hb]
      rw [es, hb]
      have hn : FIXED_1 ≤ res * t.2.1 / t.2.2 := by
        rw [Int.le_ediv_iff_mul_le h2]
        exact Int.mul_le_mul h0 h1 h2.le (by have := F_pos; omega)
      refine le_trans ?_ (ih _ hn (by linarith))
      push_cast
      rw [mul_one, add_div, Real.exp_add]
      have he1 : 1 ≤ exp ((t.1 : ℝ) / Fr) := by
        refine Real.one_le_exp (div_nonneg ?_ hF.le)
        rw [hbit]; positivity
      have g1 : (res : ℝ) * exp (t.1 / Fr) * (1 - (expLoss t + 1) / Fr) ≤ ((res * t.2.1 / t.2.2 : Int) : ℝ) := by
        have a1 := lt_ediv_real (a := res * t.2.1) h2
        push_cast at a1
        have a2 := mul_le_mul_of_nonneg_left hf h0'.le
        have a3 : (res : ℝ) * exp (t.1 / Fr) * (1 / Fr) ≥ 1 := by
          rw [mul_one_div, ge_iff_le, le_div_iff₀ hF]; nlinarith
        have e4 : (res : ℝ) * exp (t.1 / Fr) * (1 - (expLoss t + 1) / Fr) = res * (exp (t.1 / Fr) * (1 - expLoss t / Fr)) - res * exp (t.1 / Fr) * (1 / Fr) := by
          field_simp; ring
        rw [e4]
        rw [mul_div_assoc] at a1
        linarith
      have g2 : (1 - ((expLoss t : ℝ) + 1 + K) / Fr) ≤ (1 - (expLoss t + 1) / Fr) * (1 - K / Fr) := by
        have e5 : (1 - ((expLoss t : ℝ) + 1) / Fr) * (1 - K / Fr) = (1 - ((expLoss t : ℝ) + 1 + K) / Fr) + (expLoss t + 1) / Fr * (K / Fr) := by ring
        rw [e5]
        have : 0 ≤ ((expLoss t : ℝ) + 1) / Fr * (K / Fr) := by positivity
        linarith
      calc (res : ℝ) * (exp (t.1 / Fr) * exp (bits x l / Fr)) * (1 - ((expLoss t : ℝ) + 1 + K) / Fr)
          ≤ res * (exp (t.1 / Fr) * exp (bits x l / Fr)) * ((1 - (expLoss t + 1) / Fr) * (1 - K / Fr)) := mul_le_mul_of_nonneg_left g2 (by positivity)
        _ = (res * exp (t.1 / Fr) * (1 - (expLoss t + 1) / Fr)) * (exp (bits x l / Fr) * (1 - K / Fr)) := by ring
        _ ≤ ((res * t.2.1 / t.2.2 : Int) : ℝ) * (exp (bits x l / Fr) * (1 - K / Fr)) := mul_le_mul_of_nonneg_right g1 (by positivity)
        _ = _ := by ring
    · have es : optExpHiStep x res t = res := by unfold optExpHiStep; rw [if_neg hb]
      have e0 : x / t.1 % 2 = 0 := by omega
      rw [es, e0, Int.cast_zero, mul_zero, zero_add]
      refine le_trans (mul_le_mul_of_nonneg_left ?_ (by positivity)) (ih _ h0 (by linarith))
      have : K / Fr ≤ ((expLoss t : ℝ) + 1 + K) / Fr := div_le_div_of_nonneg_right (by linarith) hF.le
      linarith

theorem optimalExp_low {x : Int} (h0 : 0 ≤ x) (h1 : x < OPT_EXP_MAX_VAL) : Fr * exp (x / Fr) * (1 - 250 / Fr) ≤ optimalExp x := by
  have hF := Fr_pos
  have hm : 0 ≤ x % optExpMod := Int.emod_nonneg _ (by decide)
  have hm2 : x % optExpMod < optExpMod := Int.emod_lt_of_pos _ (by decide)
  have h := optExpTaylor_ge hm hm2
  unfold optimalExp
  simp only
  have hr : FIXED_1 ≤ (optExpCoeffs.foldl (optExpLoStep (x % optExpMod)) (x % optExpMod, 0)).2 / optExpDen + x % optExpMod + FIXED_1 := by
    have := (optExp_fold_nonneg hm _ optExpCoeffs_nonneg (x % optExpMod, 0) hm (Int.le_refl 0)).2
    have := Int.ediv_nonneg this optExpDen_pos.le
    omega
  have es : (((optExpHi.map fun t => expLoss t + 1).sum : Nat) : ℝ) = 244 := by
    have : (optExpHi.map fun t => expLoss t + 1).sum = 244 := by decide +kernel
    rw [this]; norm_num
  have hf := optExpHi_fold_ge (x := x) optExpHi (fun _ h => h) _ hr (by rw [es]; unfold Fr; norm_num)
  refine le_trans ?_ hf
  rw [es]
  generalize ((optExpCoeffs.foldl (optExpLoStep (x % optExpMod)) (x % optExpMod, 0)).2 / optExpDen + x % optExpMod + FIXED_1) = r at h hr
  have := bits_all h0 h1
  have e2 : (x : ℝ) = ((x % optExpMod : Int) : ℝ) + bits x optExpHi := by exact_mod_cast this.symm
  rw [e2, add_div, Real.exp_add]
  have hE := Real.exp_pos ((bits x optExpHi : ℝ) / Fr)
  have he1 : 1 ≤ exp (((x % optExpMod : Int) : ℝ) / Fr) := Real.one_le_exp (div_nonneg (by exact_mod_cast hm) hF.le)
  generalize exp ((bits x optExpHi : ℝ) / Fr) = E at hE ⊢
  generalize exp (((x % optExpMod : Int) : ℝ) / Fr) = e at h he1 ⊢
  have h3 : Fr * e * (1 - 3 / Fr) ≤ r := by
    have : Fr * e * (1 - 3 / Fr) = Fr * e - 3 * e := by field_simp
    rw [this]; linarith
  have h244 : (0 : ℝ) ≤ 1 - 244 / Fr := by rw [sub_nonneg, div_le_one hF]; unfold Fr; norm_num
  calc Fr * (e * E) * (1 - 250 / Fr) ≤ Fr * (e * E) * ((1 - 3 / Fr) * (1 - 244 / Fr)) := by
        refine mul_le_mul_of_nonneg_left ?_ (by positivity)
        have e5 : (1 - 3 / Fr) * (1 - 244 / Fr) = 1 - 250 / Fr + (3 / Fr + 3 / Fr * (244 / Fr)) := by ring
        rw [e5]
        have : 0 ≤ 3 / Fr + 3 / Fr * (244 / Fr) := by positivity
        linarith
    _ = Fr * e * (1 - 3 / Fr) * (E * (1 - 244 / Fr)) := by ring
    _ ≤ r * (E * (1 - 244 / Fr)) := mul_le_mul_of_nonneg_right h3 (by positivity)
    _ = _ := by ring

end Verif.Formula
