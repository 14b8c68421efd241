import Verif.Proofs.FormulaLog
/-!
`_optimal_log` is within a few units in the last place of the exact logarithm.
-/
namespace Verif.Formula
open Real

/-! ### The comparison constants -/

/-- Entry `n` of the table is `F * exp (2^-(n+1))`, too low by between 0 and `d/8` units. -/
def HiEntry (n d : Nat) (t : Int × Int) : Prop :=
  (t.1 : ℝ) ≤ Fr * exp (1 / 2 ^ (n + 1)) ∧ Fr * exp (1 / 2 ^ (n + 1)) ≤ t.1 * (1 + d / 8 / Fr) ∧ (t.2 : ℝ) = Fr / 2 ^ (n + 1)

theorem hiEntry_of {n d m : Nat} {t : Int × Int} (hm : 0 < m) (hv : (t.2 : ℝ) = Fr / 2 ^ (n + 1))
    (h1 : (t.1 : ℝ) ≤ Fr * ∑ i ∈ Finset.range m, ((1 : ℝ) / 2 ^ (n + 1)) ^ i / (i.factorial : ℝ))
    (h2 : Fr * (∑ i ∈ Finset.range m, ((1 : ℝ) / 2 ^ (n + 1)) ^ i / (i.factorial : ℝ) +
      ((1 : ℝ) / 2 ^ (n + 1)) ^ m * (m + 1) / (m.factorial * m)) ≤ t.1 * (1 + d / 8 / Fr)) : HiEntry n d t := by
  have hx0 : (0 : ℝ) ≤ 1 / 2 ^ (n + 1) := by positivity
  have hx1 : (1 : ℝ) / 2 ^ (n + 1) ≤ 1 := by
    rw [div_le_one (by positivity)]
    exact one_le_pow₀ (by norm_num)
  refine ⟨h1.trans (mul_le_mul_of_nonneg_left (Real.sum_le_exp_of_nonneg hx0 m) Fr_pos.le), ?_, hv⟩
  exact (mul_le_mul_of_nonneg_left (Real.exp_bound' hx0 hx1 hm) Fr_pos.le).trans h2

/-- Tables whose entries are good from position `n` on. -/
def HiTable : Nat → List Nat → List (Int × Int) → Prop
  | _, [], [] => True
  | n, d :: ds, t :: ts => HiEntry n d t ∧ HiTable (n + 1) ds ts
  | _, _, _ => False

theorem optLogHi_table : HiTable 0 [5, 3, 2, 7, 3, 6, 2, 7] optLogHi := by
  unfold optLogHi
  simp only [HiTable]
  refine ⟨hiEntry_of (m := 31) (by norm_num) ?_ ?_ ?_, hiEntry_of (m := 27) (by norm_num) ?_ ?_ ?_,
    hiEntry_of (m := 24) (by norm_num) ?_ ?_ ?_, hiEntry_of (m := 19) (by norm_num) ?_ ?_ ?_,
    hiEntry_of (m := 17) (by norm_num) ?_ ?_ ?_, hiEntry_of (m := 15) (by norm_num) ?_ ?_ ?_,
    hiEntry_of (m := 14) (by norm_num) ?_ ?_ ?_, hiEntry_of (m := 13) (by norm_num) ?_ ?_ ?_, trivial⟩ <;>
  · simp only [Finset.sum_range_succ, Finset.sum_range_zero, Nat.factorial, Fr]
    norm_num

/-! ### The first phase -/

/-- Natural logarithm of a fixed-point number, in units of the last place. -/
noncomputable def fln (x : Int) : ℝ := Fr * log (x / Fr)

theorem real_pos_of_ge {x : Int} (h : FIXED_1 ≤ x) : (0 : ℝ) < x := by
  have := F_pos
  exact_mod_cast (by omega : 0 < x)

theorem Fr_le {x : Int} (h : FIXED_1 ≤ x) : Fr ≤ x := by rw [← F_cast]; exact_mod_cast h

theorem fln_nonneg {x : Int} (h : FIXED_1 ≤ x) : 0 ≤ fln x :=
  mul_nonneg Fr_pos.le (Real.log_nonneg (by rw [le_div_iff₀ Fr_pos, one_mul]; exact Fr_le h))

/-- The logarithm of a quotient rounded down: within one unit. -/
theorem fln_div {r : ℝ} {y : Int} (hy : FIXED_1 ≤ y) (h1 : (y : ℝ) ≤ r) (h2 : r ≤ y + 1) :
    fln y ≤ Fr * log (r / Fr) ∧ Fr * log (r / Fr) - 1 ≤ fln y := by
  have hy0 := real_pos_of_ge hy
  have hr0 : 0 < r := lt_of_lt_of_le hy0 h1
  refine ⟨mul_le_mul_of_nonneg_left (Real.log_le_log (div_pos hy0 Fr_pos) (div_le_div_of_nonneg_right h1 Fr_pos.le)) Fr_pos.le, ?_⟩
  have h3 : log (r / Fr) - log (y / Fr) ≤ 1 / Fr := by
    rw [← Real.log_div (div_pos hr0 Fr_pos).ne' (div_pos hy0 Fr_pos).ne', div_div_div_cancel_right₀ Fr_pos.ne']
    refine (Real.log_le_sub_one_of_pos (div_pos hr0 hy0)).trans ?_
    have : r / y - 1 = (r - y) / y := by field_simp
    rw [this]
    calc (r - y) / y ≤ 1 / y := div_le_div_of_nonneg_right (by linarith) hy0.le
      _ ≤ 1 / Fr := one_div_le_one_div_of_le Fr_pos (Fr_le hy)
  have h4 := mul_le_mul_of_nonneg_left h3 Fr_pos.le
  rw [mul_one_div_cancel Fr_pos.ne', mul_sub] at h4
  unfold fln
  linarith

theorem hi_step {n d : Nat} {t : Int × Int} {x : Int} (ht : HiEntry n d t) (hx : FIXED_1 ≤ x) (hF : FIXED_1 ≤ t.1) (hc : x ≥ t.1) :
    FIXED_1 ≤ x * FIXED_1 / t.1 ∧ (t.2 : ℝ) + fln (x * FIXED_1 / t.1) ≤ fln x + d / 8 ∧ fln x - 1 ≤ t.2 + fln (x * FIXED_1 / t.1) := by
  obtain ⟨h1, h2, h3⟩ := ht
  have hF0 := F_pos
  have ht0 : 0 < t.1 := by omega
  have hy : FIXED_1 ≤ x * FIXED_1 / t.1 := by
    rw [Int.le_ediv_iff_mul_le ht0, Int.mul_comm x]
    exact Int.mul_le_mul_of_nonneg_left hc hF0.le
  have ht' : (0 : ℝ) < t.1 := by exact_mod_cast ht0
  have hx' := real_pos_of_ge hx
  refine ⟨hy, ?_⟩
  have ha : ((x * FIXED_1 / t.1 : Int) : ℝ) ≤ x * Fr / t.1 := by
    refine (ediv_le_real ht0).trans (le_of_eq ?_); push_cast; rw [F_cast]
  have hb : (x : ℝ) * Fr / t.1 ≤ ((x * FIXED_1 / t.1 : Int) : ℝ) + 1 := by
    have := lt_ediv_real (a := x * FIXED_1) ht0
    push_cast at this; rw [F_cast] at this; linarith
  obtain ⟨h5, h6⟩ := fln_div hy ha hb
  have e : log (x * Fr / t.1 / Fr) = log (x / Fr) - log (t.1 / Fr) := by
    rw [← Real.log_div (div_pos hx' Fr_pos).ne' (div_pos ht' Fr_pos).ne']
    congr 1
    have := Fr_pos.ne'
    field_simp
  rw [e, mul_sub] at h5 h6
  have up : log (t.1 / Fr) ≤ 1 / 2 ^ (n + 1) := by
    rw [Real.log_le_iff_le_exp (div_pos ht' Fr_pos), div_le_iff₀ Fr_pos]; linarith
  have down : (1 : ℝ) / 2 ^ (n + 1) ≤ log (t.1 / Fr) + d / 8 / Fr := by
    have h7 : exp (1 / 2 ^ (n + 1)) ≤ t.1 / Fr * exp (d / 8 / Fr) := by
      have h8 : (t.1 : ℝ) * (1 + d / 8 / Fr) ≤ t.1 * exp (d / 8 / Fr) :=
        mul_le_mul_of_nonneg_left (by linarith [Real.add_one_le_exp ((d : ℝ) / 8 / Fr)]) ht'.le
      rw [div_mul_eq_mul_div, le_div_iff₀ Fr_pos]; linarith
    have h8 := Real.log_le_log (Real.exp_pos _) h7
    rwa [Real.log_exp, Real.log_mul (div_pos ht' Fr_pos).ne' (Real.exp_pos _).ne', Real.log_exp] at h8
  have up' := mul_le_mul_of_nonneg_left up Fr_pos.le
  have down' := mul_le_mul_of_nonneg_left down Fr_pos.le
  rw [mul_add, mul_div_cancel₀ _ Fr_pos.ne'] at down'
  have h9 : (t.2 : ℝ) = Fr * (1 / 2 ^ (n + 1)) := by rw [h3]; ring
  have e2 : fln x = Fr * log (x / Fr) := rfl
  constructor <;> linarith

theorem hi_fold : ∀ (ts : List (Int × Int)) (ds : List Nat) (n : Nat), HiTable n ds ts → (∀ t ∈ ts, FIXED_1 ≤ t.1) →
    ∀ (x res : Int), FIXED_1 ≤ x → let st := ts.foldl optLogHiStep (x, res)
    FIXED_1 ≤ st.1 ∧ (st.2 : ℝ) + fln st.1 ≤ res + fln x + (ds.sum : ℝ) / 8 ∧ (res : ℝ) + fln x - ts.length ≤ st.2 + fln st.1
  | [], [], _, _, _, x, res, hx => by simp [hx]
  | [], _ :: _, _, h, _, _, _, _ => by simp [HiTable] at h
  | _ :: _, [], _, h, _, _, _, _ => by simp [HiTable] at h
  | t :: ts, d :: ds, n, h, hF, x, res, hx => by
    obtain ⟨ht, h⟩ := h
    have hd : (0 : ℝ) ≤ d / 8 := by positivity
    have htF := hF t List.mem_cons_self
    have hF' : ∀ t ∈ ts, FIXED_1 ≤ t.1 := fun t h => hF t (List.mem_cons_of_mem _ h)
    by_cases hc : x ≥ t.1
    · obtain ⟨h1, h2, h3⟩ := hi_step ht hx htF hc
      have es : optLogHiStep (x, res) t = (x * FIXED_1 / t.1, res + t.2) := by unfold optLogHiStep; rw [if_pos hc]
      obtain ⟨k1, k2, k3⟩ := hi_fold ts ds (n + 1) h hF' (x * FIXED_1 / t.1) (res + t.2) h1
      simp only [List.foldl_cons, es, List.sum_cons, List.length_cons]
      push_cast at k2 k3 ⊢
      exact ⟨k1, by linarith, by linarith⟩
    · have es : optLogHiStep (x, res) t = (x, res) := by unfold optLogHiStep; rw [if_neg hc]
      obtain ⟨k1, k2, k3⟩ := hi_fold ts ds (n + 1) h hF' x res hx
      simp only [List.foldl_cons, es, List.sum_cons, List.length_cons]
      push_cast at k2 k3 ⊢
      exact ⟨k1, by linarith, by linarith⟩

/-! ### The second phase -/

/-- Entry `j` of the second table stands for the `j`-th pair of terms of the series. -/
def LoTable : Nat → List (Int × Int) → Prop
  | _, [] => True
  | j, t :: ts => (t.2 = (2 * j + 2) * FIXED_1 ∧ t.1 * (2 * j + 1) ≤ FIXED_1 * (2 * j + 2) ∧
      FIXED_1 * (2 * j + 2) < (t.1 + 1) * (2 * j + 1)) ∧ LoTable (j + 1) ts

instance : ∀ j ts, Decidable (LoTable j ts)
  | _, [] => .isTrue trivial
  | j, _ :: ts => by unfold LoTable; exact @instDecidableAnd _ _ _ (instDecidableLoTable (j + 1) ts)

theorem optLogLo_table : LoTable 0 optLogLo := by decide +kernel

/-- The `j`-th pair of terms of the series. -/
noncomputable def pair (u : ℝ) (j : Nat) : ℝ := u ^ (2 * j + 1) / (2 * j + 1) - u ^ (2 * j + 2) / (2 * j + 2)

theorem pair_sum (u : ℝ) : ∀ n : Nat, ∑ j ∈ Finset.range n, pair u j = logSeries (2 * n) u
  | 0 => by simp [logSeries]
  | n + 1 => by
    have ih := pair_sum u n
    unfold logSeries at ih ⊢
    rw [Finset.sum_range_succ, ih, show 2 * (n + 1) = 2 * n + 1 + 1 by omega, Finset.sum_range_succ, Finset.sum_range_succ]
    unfold pair
    rw [pow_succ (-1 : ℝ) (2 * n), pow_mul (-1 : ℝ)]
    push_cast
    ring

theorem lo_entry {j : Nat} {t : Int × Int} {y z : Int} {u : ℝ} (hy0 : 0 ≤ y) (hy1 : y ≤ YMAX) (hu : u = y / Fr)
    (ht : t.2 = (2 * j + 2) * FIXED_1 ∧ t.1 * (2 * j + 1) ≤ FIXED_1 * (2 * j + 2) ∧ FIXED_1 * (2 * j + 2) < (t.1 + 1) * (2 * j + 1))
    (hz0 : 0 ≤ z) (hz : (z : ℝ) ≤ Fr * u ^ (2 * j + 1)) (hz' : Fr * u ^ (2 * j + 1) - 2 ≤ z) :
    ((z * (t.1 - y) / t.2 : Int) : ℝ) ≤ Fr * pair u j ∧ Fr * pair u j - (5 / 4 + 2 / (2 * j + 1)) ≤ ((z * (t.1 - y) / t.2 : Int) : ℝ) := by
  obtain ⟨h1, h2, h3⟩ := ht
  have hF := Fr_pos
  have hd : 0 < t.2 := by rw [h1]; have := F_pos; positivity
  have hj1 : (0 : ℝ) < 2 * j + 1 := by positivity
  have hj2 : (0 : ℝ) < 2 * j + 2 := by positivity
  have hd' : (t.2 : ℝ) = (2 * j + 2) * Fr := by rw [h1]; push_cast; rw [F_cast]
  have h2' : (t.1 : ℝ) ≤ Fr * (2 * j + 2) / (2 * j + 1) := by
    rw [le_div_iff₀ hj1, ← F_cast]; exact_mod_cast h2
  have h3' : Fr * (2 * j + 2) / (2 * j + 1) - 1 ≤ t.1 := by
    rw [sub_le_iff_le_add, div_le_iff₀ hj1, ← F_cast]
    exact_mod_cast h3.le
  have hz0' : (0 : ℝ) ≤ z := by exact_mod_cast hz0
  have hy0' : (0 : ℝ) ≤ y := by exact_mod_cast hy0
  have hu0 : 0 ≤ u := by rw [hu]; positivity
  have hyu : (y : ℝ) = Fr * u := by rw [hu]; field_simp
  have hu1 : u ≤ 1 / 8 := by
    rw [hu, div_le_iff₀ hF]
    have : (y : ℝ) ≤ YMAX := by exact_mod_cast hy1
    refine this.trans ?_
    unfold YMAX Fr; norm_num
  -- the exact factor
  have ef : (t.1 - (y : ℝ)) / t.2 ≤ 1 / (2 * j + 1) - u / (2 * j + 2) := by
    rw [hd', div_le_iff₀ (by positivity), hyu]
    have : (1 / (2 * (j : ℝ) + 1) - u / (2 * j + 2)) * ((2 * j + 2) * Fr) = Fr * (2 * j + 2) / (2 * j + 1) - Fr * u := by field_simp
    rw [this]; linarith
  have ef2 : 1 / (2 * (j : ℝ) + 1) - u / (2 * j + 2) - 1 / ((2 * j + 2) * Fr) ≤ (t.1 - (y : ℝ)) / t.2 := by
    rw [hd', le_div_iff₀ (by positivity), hyu]
    have : (1 / (2 * (j : ℝ) + 1) - u / (2 * j + 2) - 1 / ((2 * j + 2) * Fr)) * ((2 * j + 2) * Fr) = Fr * (2 * j + 2) / (2 * j + 1) - Fr * u - 1 := by field_simp
    rw [this]; linarith
  have g0 : 0 ≤ 1 / (2 * (j : ℝ) + 1) - u / (2 * j + 2) := by
    have : u / (2 * (j : ℝ) + 2) ≤ 1 / (2 * j + 1) := by
      rw [div_le_div_iff₀ hj2 hj1]; nlinarith
    linarith
  have ep : Fr * pair u j = Fr * u ^ (2 * j + 1) * (1 / (2 * j + 1) - u / (2 * j + 2)) := by
    unfold pair; rw [pow_succ u (2 * j + 1)]; ring
  have eq : ((z * (t.1 - y) : Int) : ℝ) / t.2 = z * ((t.1 - (y : ℝ)) / t.2) := by push_cast; ring
  constructor
  · refine (ediv_le_real hd).trans ?_
    rw [eq, ep]
    calc (z : ℝ) * ((t.1 - (y : ℝ)) / t.2) ≤ z * (1 / (2 * j + 1) - u / (2 * j + 2)) := mul_le_mul_of_nonneg_left ef hz0'
      _ ≤ _ := mul_le_mul_of_nonneg_right hz g0
  · have h4 := lt_ediv_real (a := z * (t.1 - y)) hd
    rw [eq] at h4
    have h5 : (z : ℝ) * (1 / (2 * j + 1) - u / (2 * j + 2) - 1 / ((2 * j + 2) * Fr)) ≤ z * ((t.1 - (y : ℝ)) / t.2) :=
      mul_le_mul_of_nonneg_left ef2 hz0'
    have h6 : (z : ℝ) * (1 / ((2 * j + 2) * Fr)) ≤ 1 / 4 := by
      have : (z : ℝ) ≤ Fr * (1 / 8) := hz.trans (mul_le_mul_of_nonneg_left (by
        calc u ^ (2 * j + 1) ≤ u := pow_le_of_le_one hu0 (by linarith) (by omega)
          _ ≤ 1 / 8 := hu1) hF.le)
      rw [mul_one_div, div_le_iff₀ (by positivity)]
      have : (0 : ℝ) ≤ j := by positivity
      nlinarith
    have h7 : Fr * u ^ (2 * j + 1) * (1 / (2 * j + 1) - u / (2 * j + 2)) - 2 / (2 * j + 1) ≤ z * (1 / (2 * j + 1) - u / (2 * j + 2)) := by
      have g1 : (1 / (2 * (j : ℝ) + 1) - u / (2 * j + 2)) ≤ 1 / (2 * j + 1) := by
        have : 0 ≤ u / (2 * (j : ℝ) + 2) := by positivity
        linarith
      have := mul_le_mul_of_nonneg_right hz' g0
      have h8 : 2 * (1 / (2 * (j : ℝ) + 1) - u / (2 * j + 2)) ≤ 2 / (2 * j + 1) := by
        calc 2 * (1 / (2 * (j : ℝ) + 1) - u / (2 * j + 2)) ≤ 2 * (1 / (2 * j + 1)) := mul_le_mul_of_nonneg_left g1 (by norm_num)
          _ = _ := by ring
      linarith
    rw [ep]
    linarith

theorem lo_fold {y w : Int} {u : ℝ} (hy0 : 0 ≤ y) (hy1 : y ≤ YMAX) (hu : u = y / Fr) (hw : w = y * y / FIXED_1) :
    ∀ (ts : List (Int × Int)) (j : Nat), LoTable j ts → ∀ (z res : Int), 0 ≤ z → (z : ℝ) ≤ Fr * u ^ (2 * j + 1) →
    Fr * u ^ (2 * j + 1) - 2 ≤ z →
    (((ts.foldl (optLogLoStep y w) (z, res)).2 : Int) : ℝ) ≤ res + Fr * ∑ i ∈ Finset.range ts.length, pair u (j + i) ∧
    (res : ℝ) + Fr * ∑ i ∈ Finset.range ts.length, pair u (j + i) - ∑ i ∈ Finset.range ts.length, (5 / 4 + 2 / (2 * ((j + i : Nat) : ℝ) + 1)) ≤
      ((ts.foldl (optLogLoStep y w) (z, res)).2 : Int)
  | [], _, _, z, res, _, _, _ => by simp
  | t :: ts, j, ⟨ht, hts⟩, z, res, hz0, hz, hz' => by
    obtain ⟨e1, e2⟩ := lo_entry hy0 hy1 hu ht hz0 hz hz'
    have hF := Fr_pos
    have hw0 : 0 ≤ w := by rw [hw]; exact Int.ediv_nonneg (Int.mul_nonneg hy0 hy0) F_pos.le
    have hy0' : (0 : ℝ) ≤ y := by exact_mod_cast hy0
    have hu0 : 0 ≤ u := by rw [hu]; positivity
    have hyu : (y : ℝ) = Fr * u := by rw [hu]; field_simp
    have hu1 : u ≤ 1 / 8 := by
      rw [hu, div_le_iff₀ hF]
      have : (y : ℝ) ≤ YMAX := by exact_mod_cast hy1
      refine this.trans ?_
      unfold YMAX Fr; norm_num
    have w1 : (w : ℝ) ≤ Fr * u ^ 2 := by
      rw [hw]; refine (ediv_le_real F_pos).trans (le_of_eq ?_)
      rw [F_cast]; push_cast; rw [hyu]; field_simp
    have w2 : Fr * u ^ 2 - 1 ≤ w := by
      have := lt_ediv_real (a := y * y) F_pos
      rw [← hw, F_cast] at this; push_cast at this
      have e : (y : ℝ) * y / Fr = Fr * u ^ 2 := by rw [hyu]; field_simp
      linarith
    have hz0' : (0 : ℝ) ≤ z := by exact_mod_cast hz0
    have hw0' : (0 : ℝ) ≤ w := by exact_mod_cast hw0
    have n0 : 0 ≤ z * w / FIXED_1 := Int.ediv_nonneg (Int.mul_nonneg hz0 hw0) F_pos.le
    have ez : Fr * u ^ (2 * (j + 1) + 1) = Fr * u ^ (2 * j + 1) * u ^ 2 := by rw [show 2 * (j + 1) + 1 = 2 * j + 1 + 2 by omega, pow_add]; ring
    have n1 : ((z * w / FIXED_1 : Int) : ℝ) ≤ Fr * u ^ (2 * (j + 1) + 1) := by
      refine (ediv_le_real F_pos).trans ?_
      rw [F_cast, div_le_iff₀ hF, ez]
      push_cast
      calc (z : ℝ) * w ≤ Fr * u ^ (2 * j + 1) * (Fr * u ^ 2) := mul_le_mul hz w1 hw0' (by positivity)
        _ = _ := by ring
    have n2 : Fr * u ^ (2 * (j + 1) + 1) - 2 ≤ ((z * w / FIXED_1 : Int) : ℝ) := by
      have h := lt_ediv_real (a := z * w) F_pos
      rw [F_cast] at h; push_cast at h
      have h2 : Fr * u ^ (2 * j + 1) * u ^ 2 - 1 ≤ z * w / Fr := by
        rw [le_div_iff₀ hF]
        have hp : u ^ (2 * j + 1) ≤ u := pow_le_of_le_one hu0 (by linarith) (by omega)
        have hp0 : 0 ≤ u ^ (2 * j + 1) := by positivity
        have a1 : (z : ℝ) * (Fr * u ^ 2 - 1) ≤ z * w := mul_le_mul_of_nonneg_left w2 hz0'
        have a2 : (Fr * u ^ (2 * j + 1) - 2) * (Fr * u ^ 2) ≤ z * (Fr * u ^ 2) := mul_le_mul_of_nonneg_right hz' (by positivity)
        have a3 : (z : ℝ) ≤ Fr * (1 / 8) := hz.trans (mul_le_mul_of_nonneg_left (by linarith) hF.le)
        have a4 : u ^ 2 ≤ 1 / 8 := by nlinarith
        have a5 : Fr * u ^ 2 ≤ Fr * (1 / 8) := mul_le_mul_of_nonneg_left a4 hF.le
        nlinarith
      rw [ez]; linarith
    obtain ⟨k1, k2⟩ := lo_fold hy0 hy1 hu hw ts (j + 1) hts (z * w / FIXED_1) (res + z * (t.1 - y) / t.2) n0 n1 n2
    have es : optLogLoStep y w (z, res) t = (z * w / FIXED_1, res + z * (t.1 - y) / t.2) := rfl
    have s1 : ∑ i ∈ Finset.range ts.length, pair u (j + (i + 1)) = ∑ i ∈ Finset.range ts.length, pair u (j + 1 + i) :=
      Finset.sum_congr rfl fun i _ => by rw [show j + (i + 1) = j + 1 + i by omega]
    have s2 : ∑ i ∈ Finset.range ts.length, ((5 : ℝ) / 4 + 2 / (2 * ((j + (i + 1) : Nat) : ℝ) + 1)) =
        ∑ i ∈ Finset.range ts.length, (5 / 4 + 2 / (2 * ((j + 1 + i : Nat) : ℝ) + 1)) :=
      Finset.sum_congr rfl fun i _ => by rw [show j + (i + 1) = j + 1 + i by omega]
    rw [List.foldl_cons, es, List.length_cons, Finset.sum_range_succ', Finset.sum_range_succ', s1, s2]
    simp only [Nat.add_zero j]
    generalize ((ts.foldl (optLogLoStep y w) (z * w / FIXED_1, res + z * (t.1 - y) / t.2)).2) = r at k1 k2 ⊢
    push_cast at k1 k2 e1 e2 ⊢
    constructor
    · rw [mul_add]; linarith
    · rw [mul_add]; linarith

/-! ### Both phases -/

theorem optimalLog_bounds {x : Int} (h1 : FIXED_1 ≤ x) (h2 : x < OPT_LOG_MAX_VAL) :
    (optimalLog x : ℝ) ≤ fln x + 5 ∧ fln x - 24 ≤ optimalLog x := by
  obtain ⟨k1, k2, k3⟩ := hi_fold optLogHi _ 0 optLogHi_table (fun t h => (optLogHi_ok t h).1) x 0 h1
  obtain ⟨b1, b2, _⟩ := optLogHi_final h1 h2
  unfold optimalLog
  simp only
  generalize optLogHi.foldl optLogHiStep (x, 0) = st at k1 k2 k3 b1 b2 ⊢
  have hy0 : 0 ≤ st.1 - FIXED_1 := by omega
  have hy1 : st.1 - FIXED_1 ≤ YMAX := by omega
  have hF := Fr_pos
  have e0 : (((st.1 - FIXED_1 : Int)) : ℝ) = Fr * ((((st.1 - FIXED_1 : Int)) : ℝ) / Fr) ^ (2 * 0 + 1) := by
    rw [Nat.mul_zero, Nat.zero_add, pow_one, mul_div_cancel₀ _ hF.ne']
  obtain ⟨m1, m2⟩ := lo_fold hy0 hy1 rfl rfl optLogLo 0 optLogLo_table (st.1 - FIXED_1) st.2 hy0 e0.le (by linarith)
  have hu0 : (0 : ℝ) ≤ (((st.1 - FIXED_1 : Int)) : ℝ) / Fr := div_nonneg (by exact_mod_cast hy0) hF.le
  have hu1 : (((st.1 - FIXED_1 : Int)) : ℝ) / Fr ≤ 1 / 255 := by
    rw [div_le_iff₀ hF]
    have : (((st.1 - FIXED_1 : Int)) : ℝ) ≤ YMAX := by exact_mod_cast hy1
    refine this.trans ?_
    unfold YMAX Fr; norm_num
  have eu : fln st.1 = Fr * log (1 + (((st.1 - FIXED_1 : Int)) : ℝ) / Fr) := by
    unfold fln; congr 2; push_cast; rw [F_cast]; field_simp; ring
  generalize (((st.1 - FIXED_1 : Int)) : ℝ) / Fr = u at m1 m2 hu0 hu1 eu
  simp only [Nat.zero_add] at m1 m2
  have el : optLogLo.length = 8 := rfl
  have el2 : optLogHi.length = 8 := rfl
  rw [el, pair_sum] at m1 m2
  rw [el2] at k3
  have g1 := even_series_le (n := 8) hu0
  have g2 := odd_series_ge (n := 8) hu0
  have g3 : logSeries (2 * 8 + 1) u ≤ logSeries (2 * 8) u + 1 / (64 * Fr) := by
    unfold logSeries
    rw [Finset.sum_range_succ]
    have : u ^ (2 * 8 + 1) ≤ (1 / 255) ^ (2 * 8 + 1) := pow_le_pow_left₀ hu0 hu1 _
    have h9 : ((1 : ℝ) / 255) ^ (2 * 8 + 1) / (((2 * 8 : Nat) : ℝ) + 1) ≤ 1 / (64 * Fr) := by unfold Fr; norm_num
    have h10 : (-1 : ℝ) ^ (2 * 8) * u ^ (2 * 8 + 1) / (((2 * 8 : Nat) : ℝ) + 1) ≤ (1 / 255) ^ (2 * 8 + 1) / (((2 * 8 : Nat) : ℝ) + 1) := by
      refine div_le_div_of_nonneg_right ?_ (by positivity)
      rw [show ((-1 : ℝ) ^ (2 * 8)) = 1 by norm_num, one_mul]; exact this
    linarith
  have g1' := mul_le_mul_of_nonneg_left g1 hF.le
  have g2' := mul_le_mul_of_nonneg_left (g2.trans g3) hF.le
  rw [← eu] at g1' g2'
  have h11 : Fr * (1 / (64 * Fr)) ≤ 1 / 64 := le_of_eq (by field_simp)
  rw [mul_add] at g2'
  have s3 : ∑ i ∈ Finset.range 8, ((5 : ℝ) / 4 + 2 / (2 * ((i : Nat) : ℝ) + 1)) ≤ 15 := by
    simp only [Finset.sum_range_succ, Finset.sum_range_zero]; norm_num
  have s4 : (([5, 3, 2, 7, 3, 6, 2, 7] : List Nat).sum : ℝ) = 35 := by norm_num
  rw [s4] at k2
  push_cast at k2 k3
  constructor <;> linarith

end Verif.Formula
