import Verif.Proofs.GeneratorLog
/-!
The factors of the natural logarithm of 2, as the script computes them with `Decimal`.
-/
set_option autoImplicit false
namespace Verif.Generator
open Real

theorem log2_lower : (1037348597042850888842955372387121716824613784951240 : ℝ) / 2 ^ 170 ≤ log 2 := by
  rw [Real.le_log_iff_exp_le (by norm_num)]
  refine (Real.exp_bound' (n := 46) (by norm_num) (by norm_num) (by norm_num)).trans ?_
  simp only [Finset.sum_range_succ, Finset.sum_range_zero, Nat.factorial]
  norm_num

theorem log2_upper : log 2 ≤ (1037348597042850888842955372387121716824613784951244 : ℝ) / 2 ^ 170 := by
  rw [Real.log_le_iff_le_exp (by norm_num)]
  refine le_trans ?_ (Real.sum_le_exp_of_nonneg (by norm_num) 46)
  simp only [Finset.sum_range_succ, Finset.sum_range_zero, Nat.factorial]
  norm_num

/-- The logarithm of the largest number of 129 bits. -/
theorem log_max : (129 : ℝ) * log 2 - (1 : ℝ) / ((2 : ℝ) ^ 129 - (1 : ℝ)) ≤ log ((1 <<< (256 - MAX_PRECISION) - 1 : Nat) : ℝ) ∧
    log ((1 <<< (256 - MAX_PRECISION) - 1 : Nat) : ℝ) ≤ (129 : ℝ) * log 2 - (1 : ℝ) / (2 : ℝ) ^ 129 := by
  have e : ((1 <<< (256 - MAX_PRECISION) - 1 : Nat) : ℝ) = 2 ^ 129 - 1 := by
    rw [show (1 <<< (256 - MAX_PRECISION) - 1 : Nat) = 680564733841876926926749214863536422911 by decide +kernel]; norm_num
  have l : log ((2 : ℝ) ^ 129) = 129 * log 2 := by rw [Real.log_pow]; norm_num
  rw [e, ← l]
  constructor
  · have := Real.log_le_sub_one_of_pos (x := (2 : ℝ) ^ 129 / (2 ^ 129 - 1)) (by norm_num)
    rw [Real.log_div (by norm_num) (by norm_num)] at this
    have h : (2 : ℝ) ^ 129 / (2 ^ 129 - 1) - 1 = 1 / (2 ^ 129 - 1) := by norm_num
    rw [h] at this
    exact sub_le_comm.mp this
  · have := Real.log_le_sub_one_of_pos (x := ((2 : ℝ) ^ 129 - 1) / 2 ^ 129) (by norm_num)
    rw [Real.log_div (by norm_num) (by norm_num)] at this
    have h : ((2 : ℝ) ^ 129 - 1) / 2 ^ 129 - 1 = - (1 / 2 ^ 129) := by norm_num
    rw [h, sub_le_iff_le_add, neg_add_eq_sub] at this
    exact this

/-- The quotient that is divided by. -/
theorem floor_log2 {a b c d : ℝ} (ha : Rounded (log ((1 <<< (256 - MAX_PRECISION) - 1 : Nat) : ℝ)) a) (hb : Rounded (log 2) b)
    (hc : Rounded (a / b) c) (hd : Rounded (c * 2 ^ MAX_PRECISION) d) : ⌊d⌋₊ = 129 * 2 ^ 127 - 1 := by
  obtain ⟨m1, m2⟩ := log_max
  have lo := log2_lower
  have hi := log2_upper
  generalize log ((1 <<< (256 - MAX_PRECISION) - 1 : Nat) : ℝ) = M at *
  generalize log 2 = l at *
  have l0 : (0.693 : ℝ) ≤ l := le_trans (by norm_num) lo
  have l1 : l ≤ 0.694 := hi.trans (by norm_num)
  have M0 : (0 : ℝ) < M := by norm_num at m1; linarith
  have a0 := ha.pos M0
  have b0 := hb.pos (by linarith)
  have c0 := hc.pos (div_pos a0 b0)
  have al := ha.lower M0.le
  have au := ha.upper M0.le
  have bl := hb.lower (by linarith)
  have bu := hb.upper (by linarith)
  have cl := hc.lower (div_pos a0 b0).le
  have cu := hc.upper (div_pos a0 b0).le
  have p0 : (0 : ℝ) < c * 2 ^ MAX_PRECISION := by positivity
  have dl := hd.lower p0.le
  have du := hd.upper p0.le
  rw [show MAX_PRECISION = 127 from rfl] at *
  have hcu : c < 129 - 1 / (4 * 2 ^ 127) := by
    refine lt_of_le_of_lt cu ?_
    rw [div_mul_eq_mul_div, div_lt_iff₀ b0]
    norm_num at *
    linarith
  have hcl : 129 - 1 / (2 * 2 ^ 127) < c := by
    refine lt_of_lt_of_le ?_ cl
    rw [div_mul_eq_mul_div, lt_div_iff₀ b0]
    norm_num at *
    linarith
  apply floor_of
  · norm_num at *
    linarith
  · norm_num at *
    linarith

theorem ceil_of {y : ℝ} {n : Nat} (h1 : (n : ℝ) < y) (h2 : y ≤ n + 1) : ⌈y⌉₊ = n + 1 := by
  refine le_antisymm (Nat.ceil_le.mpr (by push_cast; exact h2)) (Nat.lt_ceil.mpr h1)

theorem ceil_den {l q : ℝ} (h1 : Rounded (log 2) l) (h2 : Rounded ((5275695611177340518812009417546793976 : Nat) / l) q) :
    ⌈q⌉₊ = 7611219895485218073587121647846406784 := by
  have lo := log2_lower
  have hi := log2_upper
  generalize log 2 = L at *
  have L0 : 0 < L := lt_of_lt_of_le (by norm_num) lo
  have l0 := h1.pos L0
  have ll := h1.lower L0.le
  have lu := h1.upper L0.le
  have q0 : (0 : ℝ) ≤ (5275695611177340518812009417546793976 : Nat) / l := by positivity
  have ql := h2.lower q0
  have qu := h2.upper q0
  apply ceil_of (n := 7611219895485218073587121647846406783)
  · refine lt_of_lt_of_le ?_ ql
    rw [div_mul_eq_mul_div, lt_div_iff₀ l0]
    norm_num at *
    linarith
  · refine qu.trans ?_
    rw [div_mul_eq_mul_div, div_le_iff₀ l0]
    norm_num at *
    linarith

theorem ln2Factors_iff (num den : Nat) : Ln2Factors num den ↔
    num = 5275695611177340518812009417546793976 ∧ den = 7611219895485218073587121647846406784 := by
  have hn : (1 <<< 256 - 1) / (129 * 2 ^ 127 - 1) = 5275695611177340518812009417546793976 := by decide +kernel
  constructor
  · rintro ⟨a, b, c, d, l, q, h1, h2, h3, h4, h5, h6, h7, h8⟩
    rw [floor_log2 h1 h2 h3 h4, hn] at h5
    subst h5
    exact ⟨rfl, h8.trans (ceil_den h6 h7)⟩
  · rintro ⟨rfl, rfl⟩
    refine ⟨_, _, _, _, _, _, .self _, .self _, .self _, .self _, ?_, .self _, .self _, (ceil_den (.self _) (.self _)).symm⟩
    rw [floor_log2 (.self _) (.self _) (.self _) (.self _), hn]

end Verif.Generator
