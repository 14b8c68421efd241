import Verif.Proofs.Generator
import Verif.Proofs.FormulaLow
/-!
What the generator scripts compute with `Decimal`: however the 100 digits are rounded, the integers are the contract's.
-/
set_option autoImplicit false
namespace Verif.Generator
open Real

/-! ### Rounding -/

theorem Rounded.lower {x y : ℝ} (h : Rounded x y) (h0 : 0 ≤ x) : x * (1 - 1 / 10 ^ 99) ≤ y := by
  have := (abs_le.mp h.1).1
  rw [abs_of_nonneg h0] at this
  linarith [show x * (1 - 1 / 10 ^ 99) = x - x / 10 ^ 99 by ring]

theorem Rounded.upper {x y : ℝ} (h : Rounded x y) (h0 : 0 ≤ x) : y ≤ x * (1 + 1 / 10 ^ 99) := by
  have := (abs_le.mp h.1).2
  rw [abs_of_nonneg h0] at this
  linarith [show x * (1 + 1 / 10 ^ 99) = x + x / 10 ^ 99 by ring]

theorem Rounded.self (x : ℝ) : Rounded x x := ⟨by rw [sub_self, abs_zero]; positivity, fun _ => rfl⟩

theorem floor_of {y : ℝ} {n : Nat} (h1 : (n : ℝ) ≤ y) (h2 : y < n + 1) : ⌊y⌋₊ = n :=
  (Nat.floor_eq_iff ((Nat.cast_nonneg n).trans h1)).mpr ⟨h1, h2⟩

theorem Rounded.pos {x y : ℝ} (h : Rounded x y) (h0 : 0 < x) : 0 < y :=
  lt_of_lt_of_le (_root_.mul_pos h0 (by norm_num)) (h.lower h0.le)

/-- The constant `FIXED_1` as a real number. -/
theorem F_real : ((FIXED_1 : Nat) : ℝ) = 2 ^ 127 := by
  have : FIXED_1 = 2 ^ 127 := by decide +kernel
  rw [this]; norm_num

/-! ### The terms of the logarithm -/

/-- All terms, first the one that bounds the domain. -/
def logTable : List (Nat × Nat) := [
  (170141183460469231731687303715884105728, 462491687273110168575455517921668397539),
  (85070591730234615865843651857942052864, 280515388193368458015406427511040113880),
  (42535295865117307932921825928971026432, 218465603988574474844591417643679820199),
  (21267647932558653966460912964485513216, 192795218841189805222451540510555621025),
  (10633823966279326983230456482242756608, 181114347027396448854165353426875372712),
  (5316911983139663491615228241121378304, 175542044379434494067323265867529472979),
  (2658455991569831745807614120560689152, 172820517236198538127967385733353125282),
  (1329227995784915872903807060280344576, 171475617301169790829459146906809945753),
  (664613997892457936451903530140172288, 170807097224429000759274174605493073715)]

theorem logTable_swap : logTable.map swap = (Formula.OPT_LOG_MAX_VAL, Formula.FIXED_1) :: Formula.optLogHi := by decide +kernel

theorem cur_fits {n : Nat} (hn : n ≤ 8) : Fits ((LOG_MAX_HI_TERM_VAL : ℝ) / 2 ^ n) := by
  refine ⟨5 ^ n, -n, ?_, ?_⟩
  · rw [abs_of_nonneg (by positivity)]
    calc (5 : ℤ) ^ n ≤ 5 ^ 8 := pow_le_pow_right₀ (by norm_num) hn
      _ < 10 ^ 100 := by norm_num
  · have : (10 : ℝ) ^ n = 5 ^ n * 2 ^ n := by rw [← mul_pow]; norm_num
    rw [zpow_neg, zpow_natCast, this]
    unfold LOG_MAX_HI_TERM_VAL
    push_cast
    field_simp

theorem val_fits {n : Nat} (hn : n ≤ 8) : Fits ((FIXED_1 : ℝ) * (LOG_MAX_HI_TERM_VAL / 2 ^ n)) := by
  refine ⟨2 ^ (127 - n), 0, ?_, ?_⟩
  · rw [abs_of_nonneg (by positivity)]
    calc (2 : ℤ) ^ (127 - n) ≤ 2 ^ 127 := pow_le_pow_right₀ (by norm_num) (by omega)
      _ < 10 ^ 100 := by norm_num
  · rw [F_real, zpow_zero, mul_one]
    unfold LOG_MAX_HI_TERM_VAL
    have : (2 : ℝ) ^ 127 = 2 ^ (127 - n) * 2 ^ n := by rw [← pow_add]; congr 1; omega
    rw [this]
    push_cast
    field_simp

/-- Bounds of `exp (1 / 2^n)` are enough to know the term. -/
theorem logHiTerm_iff {n e : Nat} (hn : n ≤ 8) (m : Nat) (hm : 0 < m)
    (h1 : (e : ℝ) + 1 / 10 ^ 50 ≤ 2 ^ 127 * ∑ i ∈ Finset.range m, ((1 : ℝ) / 2 ^ n) ^ i / (i.factorial : ℝ))
    (h2 : 2 ^ 127 * (∑ i ∈ Finset.range m, ((1 : ℝ) / 2 ^ n) ^ i / (i.factorial : ℝ) +
      ((1 : ℝ) / 2 ^ n) ^ m * (m + 1) / (m.factorial * m)) ≤ e + 1 - 1 / 10 ^ 50) (hbig : e ≤ 2 ^ 129) (t : Nat × Nat) :
    LogHiTerm n t ↔ t = (2 ^ (127 - n), e) := by
  have hone : ((LOG_MAX_HI_TERM_VAL : Nat) : ℝ) = 1 := by unfold LOG_MAX_HI_TERM_VAL; norm_num
  have hx0 : (0 : ℝ) ≤ 1 / 2 ^ n := by positivity
  have hx1 : (1 : ℝ) / 2 ^ n ≤ 1 := by
    rw [div_le_one (by positivity)]; exact one_le_pow₀ (by norm_num)
  have k1 : (e : ℝ) + 1 / 10 ^ 50 ≤ 2 ^ 127 * exp (1 / 2 ^ n) :=
    h1.trans (mul_le_mul_of_nonneg_left (Real.sum_le_exp_of_nonneg hx0 m) (by positivity))
  have k2 : 2 ^ 127 * exp (1 / 2 ^ n) ≤ e + 1 - 1 / 10 ^ 50 :=
    (mul_le_mul_of_nonneg_left (Real.exp_bound' hx0 hx1 hm) (by positivity)).trans h2
  have hval : ⌊(FIXED_1 : ℝ) * (LOG_MAX_HI_TERM_VAL / 2 ^ n)⌋₊ = 2 ^ (127 - n) := by
    have : (FIXED_1 : ℝ) * (LOG_MAX_HI_TERM_VAL / 2 ^ n) = ((2 ^ (127 - n) : Nat) : ℝ) := by
      rw [F_real, hone]
      have : (2 : ℝ) ^ 127 = 2 ^ (127 - n) * 2 ^ n := by rw [← pow_add]; congr 1; omega
      rw [this]; push_cast; field_simp
    rw [this, Nat.floor_natCast]
  have hexp : ∀ v p : ℝ, Rounded (exp (1 / 2 ^ n)) v → Rounded (FIXED_1 * v) p → ⌊p⌋₊ = e := by
    intro v p hv hp
    have v0 := hv.pos (exp_pos _)
    rw [F_real] at hp
    have l1 := hv.lower (exp_pos _).le
    have u1 := hv.upper (exp_pos _).le
    have l2 := hp.lower (by positivity)
    have u2 := hp.upper (by positivity)
    have hb : (e : ℝ) ≤ 2 ^ 129 := by exact_mod_cast hbig
    have hc : (2 : ℝ) ^ 129 = 680564733841876926926749214863536422912 := by norm_num
    apply floor_of
    · nlinarith [exp_pos (1 / 2 ^ n : ℝ)]
    · nlinarith [exp_pos (1 / 2 ^ n : ℝ)]
  constructor
  · rintro ⟨cur, v, ex, p, c1, c2, c3, c4, c5, c6⟩
    have hcur := c1.2 (cur_fits hn)
    rw [hcur] at c2 c4
    have hv := c2.2 (val_fits hn)
    rw [hv, hval] at c3
    rw [hone] at c4
    rw [hexp ex p c4 c5] at c6
    exact Prod.ext c3 c6
  · rintro rfl
    refine ⟨_, _, _, _, .self _, .self _, hval.symm, .self _, .self _, ?_⟩
    rw [hone]
    exact (hexp _ _ (.self _) (.self _)).symm

theorem logHiTerm_0 (t : Nat × Nat) : LogHiTerm 0 t ↔ t = (2 ^ (127 - 0), 462491687273110168575455517921668397539) := by
  refine logHiTerm_iff (by norm_num) 46 (by norm_num) ?_ ?_ (by norm_num) t <;>
  · simp only [Finset.sum_range_succ, Finset.sum_range_zero, Nat.factorial]
    norm_num

theorem logHiTerm_1 (t : Nat × Nat) : LogHiTerm 1 t ↔ t = (2 ^ (127 - 1), 280515388193368458015406427511040113880) := by
  refine logHiTerm_iff (by norm_num) 40 (by norm_num) ?_ ?_ (by norm_num) t <;>
  · simp only [Finset.sum_range_succ, Finset.sum_range_zero, Nat.factorial]
    norm_num

theorem logHiTerm_2 (t : Nat × Nat) : LogHiTerm 2 t ↔ t = (2 ^ (127 - 2), 218465603988574474844591417643679820199) := by
  refine logHiTerm_iff (by norm_num) 36 (by norm_num) ?_ ?_ (by norm_num) t <;>
  · simp only [Finset.sum_range_succ, Finset.sum_range_zero, Nat.factorial]
    norm_num

theorem logHiTerm_3 (t : Nat × Nat) : LogHiTerm 3 t ↔ t = (2 ^ (127 - 3), 192795218841189805222451540510555621025) := by
  refine logHiTerm_iff (by norm_num) 33 (by norm_num) ?_ ?_ (by norm_num) t <;>
  · simp only [Finset.sum_range_succ, Finset.sum_range_zero, Nat.factorial]
    norm_num

theorem logHiTerm_4 (t : Nat × Nat) : LogHiTerm 4 t ↔ t = (2 ^ (127 - 4), 181114347027396448854165353426875372712) := by
  refine logHiTerm_iff (by norm_num) 30 (by norm_num) ?_ ?_ (by norm_num) t <;>
  · simp only [Finset.sum_range_succ, Finset.sum_range_zero, Nat.factorial]
    norm_num

theorem logHiTerm_5 (t : Nat × Nat) : LogHiTerm 5 t ↔ t = (2 ^ (127 - 5), 175542044379434494067323265867529472979) := by
  refine logHiTerm_iff (by norm_num) 28 (by norm_num) ?_ ?_ (by norm_num) t <;>
  · simp only [Finset.sum_range_succ, Finset.sum_range_zero, Nat.factorial]
    norm_num

theorem logHiTerm_6 (t : Nat × Nat) : LogHiTerm 6 t ↔ t = (2 ^ (127 - 6), 172820517236198538127967385733353125282) := by
  refine logHiTerm_iff (by norm_num) 26 (by norm_num) ?_ ?_ (by norm_num) t <;>
  · simp only [Finset.sum_range_succ, Finset.sum_range_zero, Nat.factorial]
    norm_num

theorem logHiTerm_7 (t : Nat × Nat) : LogHiTerm 7 t ↔ t = (2 ^ (127 - 7), 171475617301169790829459146906809945753) := by
  refine logHiTerm_iff (by norm_num) 24 (by norm_num) ?_ ?_ (by norm_num) t <;>
  · simp only [Finset.sum_range_succ, Finset.sum_range_zero, Nat.factorial]
    norm_num

theorem logHiTerm_8 (t : Nat × Nat) : LogHiTerm 8 t ↔ t = (2 ^ (127 - 8), 170807097224429000759274174605493073715) := by
  refine logHiTerm_iff (by norm_num) 23 (by norm_num) ?_ ?_ (by norm_num) t <;>
  · simp only [Finset.sum_range_succ, Finset.sum_range_zero, Nat.factorial]
    norm_num

theorem logHiTerms_iff (ts : List (Nat × Nat)) : LogHiTerms ts ↔ ts = logTable := by
  unfold LogHiTerms
  constructor
  · rintro ⟨hl, h⟩
    match ts, hl, h with
    | [a0, a1, a2, a3, a4, a5, a6, a7, a8], _, h =>
      have e0 := (logHiTerm_0 _).mp (h 0 (by simp))
      have e1 := (logHiTerm_1 _).mp (h 1 (by simp))
      have e2 := (logHiTerm_2 _).mp (h 2 (by simp))
      have e3 := (logHiTerm_3 _).mp (h 3 (by simp))
      have e4 := (logHiTerm_4 _).mp (h 4 (by simp))
      have e5 := (logHiTerm_5 _).mp (h 5 (by simp))
      have e6 := (logHiTerm_6 _).mp (h 6 (by simp))
      have e7 := (logHiTerm_7 _).mp (h 7 (by simp))
      have e8 := (logHiTerm_8 _).mp (h 8 (by simp))
      simp only [List.getElem_cons_zero, List.getElem_cons_succ] at e0 e1 e2 e3 e4 e5 e6 e7 e8
      subst e0 e1 e2 e3 e4 e5 e6 e7 e8
      decide +kernel
  · rintro rfl
    refine ⟨by decide +kernel, fun n hn => ?_⟩
    have hn' : n < 9 := hn
    match n, hn, hn' with
    | 0, _, _ => exact (logHiTerm_0 _).mpr (by decide +kernel +revert)
    | 1, _, _ => exact (logHiTerm_1 _).mpr (by decide +kernel +revert)
    | 2, _, _ => exact (logHiTerm_2 _).mpr (by decide +kernel +revert)
    | 3, _, _ => exact (logHiTerm_3 _).mpr (by decide +kernel +revert)
    | 4, _, _ => exact (logHiTerm_4 _).mpr (by decide +kernel +revert)
    | 5, _, _ => exact (logHiTerm_5 _).mpr (by decide +kernel +revert)
    | 6, _, _ => exact (logHiTerm_6 _).mpr (by decide +kernel +revert)
    | 7, _, _ => exact (logHiTerm_7 _).mpr (by decide +kernel +revert)
    | 8, _, _ => exact (logHiTerm_8 _).mpr (by decide +kernel +revert)

end Verif.Generator
