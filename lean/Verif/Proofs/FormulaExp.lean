import Verif.Proofs.FormulaRange
import Mathlib.Analysis.SpecialFunctions.Exp
import Mathlib.Analysis.SpecialFunctions.Log.Basic
import Mathlib.Analysis.SpecialFunctions.Pow.Real
import Mathlib.Analysis.Complex.Exponential
/-!
The two exponentials of the conversion formula never exceed the exact exponential.
-/
namespace Verif.Formula
open Real

/-- `FIXED_1` as a real number. -/
@[irreducible] noncomputable def Fr : ℝ := 2 ^ 127

theorem F_cast : ((FIXED_1 : Int) : ℝ) = Fr := by unfold FIXED_1 Fr; norm_num

theorem ediv_le_real {a b : Int} (hb : 0 < b) : ((a / b : Int) : ℝ) ≤ (a : ℝ) / b := by
  rw [le_div_iff₀ (by exact_mod_cast hb)]
  exact_mod_cast Int.ediv_mul_le a (by omega)

theorem lt_ediv_real {a b : Int} (hb : 0 < b) : (a : ℝ) / b - 1 < ((a / b : Int) : ℝ) := by
  have h : (a : ℝ) < (((a / b : Int) : ℝ) + 1) * b := by exact_mod_cast Int.lt_ediv_add_one_mul_self a hb
  rw [sub_lt_iff_lt_add, div_lt_iff₀ (by exact_mod_cast hb)]
  exact h

/-! ### Taylor sums -/

/-- `cs = [D/k!, D/(k+1)!, ...]`. -/
def Facts (D : Int) : Nat → List Int → Prop
  | _, [] => True
  | k, c :: cs => c * k.factorial = D ∧ Facts D (k + 1) cs

instance (D : Int) : ∀ k cs, Decidable (Facts D k cs)
  | _, [] => .isTrue trivial
  | k, c :: cs => by unfold Facts; exact @instDecidableAnd _ _ _ (instDecidableFacts D (k + 1) cs)

theorem generalExp_facts : Facts generalExpDen 2 generalExpCoeffs := by decide +kernel
theorem optExp_facts : Facts optExpDen 2 optExpCoeffs := by decide +kernel

/-- One step of a Taylor sum in fixed point with unit `Q`. -/
def taylorStep (x Q : Int) (st : Int × Int) (c : Int) : Int × Int := (st.1 * x / Q, st.2 + st.1 * x / Q * c)

theorem taylor_le {x Q D : Int} (hQ : 0 < Q) (hx : 0 ≤ x) (hD0 : 0 < D) : ∀ (cs : List Int) (k : Nat), Facts D (k + 1) cs → ∀ (z res : Int), 0 ≤ z →
    (z : ℝ) ≤ Q * ((x : ℝ) / Q) ^ k →
    (((cs.foldl (taylorStep x Q) (z, res)).2 : Int) : ℝ) ≤ res + D * Q * ∑ i ∈ Finset.range cs.length, ((x : ℝ) / Q) ^ (k + 1 + i) / (k + 1 + i).factorial
  | [], _, _, z, res, _, _ => by simp
  | c :: cs, k, hf, z, res, hz, hle => by
    obtain ⟨hc, hf⟩ := hf
    have hQ' : (0 : ℝ) < Q := by exact_mod_cast hQ
    have hx' : (0 : ℝ) ≤ x := by exact_mod_cast hx
    have hu : 0 ≤ (x : ℝ) / Q := by positivity
    have hz1 : 0 ≤ z * x / Q := Int.ediv_nonneg (Int.mul_nonneg hz hx) (by omega)
    have hle1 : ((z * x / Q : Int) : ℝ) ≤ Q * ((x : ℝ) / Q) ^ (k + 1) := by
      refine (ediv_le_real hQ).trans ?_
      push_cast
      calc (z : ℝ) * x / Q = z * (x / Q) := by ring
        _ ≤ Q * (x / Q) ^ k * (x / Q) := mul_le_mul_of_nonneg_right hle hu
        _ = _ := by rw [pow_succ]; ring
    have hD : (D : ℝ) = c * (k + 1).factorial := by exact_mod_cast hc.symm
    have ih := taylor_le hQ hx hD0 cs (k + 1) hf (z * x / Q) (res + z * x / Q * c) hz1 hle1
    refine ih.trans ?_
    rw [List.length_cons, Finset.sum_range_succ']
    have hf0 : (0 : ℝ) < ((k + 1).factorial : ℝ) := by exact_mod_cast Nat.factorial_pos _
    have hc0 : (0 : ℝ) ≤ c := by
      have : (0 : ℝ) < (c : ℝ) * (k + 1).factorial := by rw [← hD]; exact_mod_cast hD0
      exact le_of_lt (pos_of_mul_pos_left this hf0.le)
    have e : ∑ i ∈ Finset.range cs.length, ((x : ℝ) / Q) ^ (k + 1 + (i + 1)) / (k + 1 + (i + 1)).factorial =
        ∑ i ∈ Finset.range cs.length, ((x : ℝ) / Q) ^ (k + 1 + 1 + i) / (k + 1 + 1 + i).factorial :=
      Finset.sum_congr rfl fun i _ => by rw [show k + 1 + (i + 1) = k + 1 + 1 + i by omega]
    rw [e, Nat.add_zero, mul_add]
    have h2 : ((z * x / Q : Int) : ℝ) * c ≤ D * Q * (((x : ℝ) / Q) ^ (k + 1) / (k + 1).factorial) := by
      calc ((z * x / Q : Int) : ℝ) * c ≤ Q * ((x : ℝ) / Q) ^ (k + 1) * c := mul_le_mul_of_nonneg_right hle1 hc0
        _ = D * Q * (((x : ℝ) / Q) ^ (k + 1) / (k + 1).factorial) := by rw [hD]; field_simp
    push_cast at h2 ⊢
    linarith

theorem taylor_exp {x Q D : Int} {cs : List Int} (hQ : 0 < Q) (hx : 0 ≤ x) (hD : 0 < D) (hf : Facts D 2 cs) :
    (((cs.foldl (taylorStep x Q) (x, 0)).2 / D + x + Q : Int) : ℝ) ≤ Q * exp ((x : ℝ) / Q) := by
  have hQ' : (0 : ℝ) < Q := by exact_mod_cast hQ
  have hD' : (0 : ℝ) < D := by exact_mod_cast hD
  have hx' : (0 : ℝ) ≤ x := by exact_mod_cast hx
  have h := taylor_le hQ hx hD cs 1 hf x 0 hx (by rw [pow_one, mul_div_cancel₀ _ hQ'.ne'])
  have h2 := Real.sum_le_exp_of_nonneg (x := (x : ℝ) / Q) (by positivity) (cs.length + 2)
  rw [Finset.sum_range_succ', Finset.sum_range_succ'] at h2
  simp only [zero_add, pow_one, pow_zero, Nat.factorial_one, Nat.factorial_zero, Nat.cast_one, div_one] at h2
  have e : ∑ i ∈ Finset.range cs.length, ((x : ℝ) / Q) ^ (1 + 1 + i) / (1 + 1 + i).factorial =
      ∑ i ∈ Finset.range cs.length, ((x : ℝ) / Q) ^ (i + 1 + 1) / (i + 1 + 1).factorial :=
    Finset.sum_congr rfl fun i _ => by rw [show 1 + 1 + i = i + 1 + 1 by omega]
  rw [e, Int.cast_zero, zero_add] at h
  generalize (cs.foldl (taylorStep x Q) (x, 0)).2 = r at h
  have h3 : ((r / D : Int) : ℝ) ≤ Q * ∑ i ∈ Finset.range cs.length, ((x : ℝ) / Q) ^ (i + 1 + 1) / (i + 1 + 1).factorial := by
    refine (ediv_le_real hD).trans ?_
    rw [div_le_iff₀ hD']
    linarith
  push_cast
  have h4 := mul_le_mul_of_nonneg_left h2 hQ'.le
  rw [mul_add, mul_add, mul_div_cancel₀ _ hQ'.ne', mul_one] at h4
  linarith

theorem generalExp_le {x : Int} (hx : 0 ≤ x) (p : Nat) : (generalExp x p : ℝ) ≤ 2 ^ p * exp (x / 2 ^ p) := by
  have h := taylor_exp (x := x) (Q := 2 ^ p) (by positivity) hx generalExpDen_pos generalExp_facts
  have e : generalExpStep x p = taylorStep x (2 ^ p) := by
    funext st c
    unfold generalExpStep taylorStep
    rw [Int.shiftRight_eq_div_pow]; simp
  unfold generalExp ONE
  rw [e, Int.one_mul]
  push_cast at h ⊢
  exact h

/-! ### The factors of `_optimal_exp` -/

/-- `e^(1/8) * 2^220` from below. -/
def expEighth : Nat := 1909351366290367958684956994937056958748976146696455256949564814878

theorem expEighth_le : (expEighth : ℝ) / 2 ^ 220 ≤ exp (1 / 8) := by
  refine le_trans ?_ (Real.sum_le_exp_of_nonneg (x := 1 / 8) (by norm_num) 34)
  simp only [Finset.sum_range_succ, Finset.sum_range_zero, Nat.factorial, expEighth]
  norm_num

theorem optExpHi_table : ∀ t ∈ optExpHi, ∃ k < 7, t.1 = 2 ^ (124 + k) ∧ 0 ≤ t.2.1 ∧ 0 < t.2.2 ∧
    t.2.1 * 2 ^ (220 * 2 ^ k) ≤ (expEighth : Int) ^ (2 ^ k) * t.2.2 := by decide +kernel

theorem optExpHi_factor {t : Int × Int × Int} (ht : t ∈ optExpHi) : (t.2.1 : ℝ) / t.2.2 ≤ exp (t.1 / Fr) := by
  obtain ⟨k, _, h1, _, h2, h3⟩ := optExpHi_table t ht
  have h2' : (0 : ℝ) < t.2.2 := by exact_mod_cast h2
  have e : exp ((t.1 : ℝ) / Fr) = exp (1 / 8) ^ (2 ^ k) := by
    rw [← Real.exp_nat_mul, h1]
    congr 1
    push_cast
    unfold Fr
    rw [pow_add]
    field_simp
    norm_num
  rw [e, div_le_iff₀ h2']
  have h4 : ((expEighth : ℝ) / 2 ^ 220) ^ (2 ^ k) ≤ exp (1 / 8) ^ (2 ^ k) :=
    pow_le_pow_left₀ (by positivity) expEighth_le _
  refine le_trans ?_ (mul_le_mul_of_nonneg_right h4 h2'.le)
  rw [div_pow, ← pow_mul, div_mul_eq_mul_div, le_div_iff₀ (by positivity)]
  exact_mod_cast h3

/-- The bits of `x` listed in a table. -/
def bits (x : Int) (l : List (Int × Int × Int)) : Int := (l.map fun t => t.1 * (x / t.1 % 2)).sum

theorem optExpHi_fold_le {x : Int} : ∀ (l : List (Int × Int × Int)), (∀ t ∈ l, t ∈ optExpHi) → ∀ res : Int, 0 ≤ res →
    ((l.foldl (optExpHiStep x) res : Int) : ℝ) ≤ res * exp (bits x l / Fr)
  | [], _, res, _ => by simp [bits]
  | t :: l, hl, res, h0 => by
    have ht := hl t List.mem_cons_self
    obtain ⟨_, _, _, h1, h2, _⟩ := optExpHi_table t ht
    have hf := optExpHi_factor ht
    have h2' : (0 : ℝ) < t.2.2 := by exact_mod_cast h2
    have h0' : (0 : ℝ) ≤ res := by exact_mod_cast h0
    have eb : bits x (t :: l) = t.1 * (x / t.1 % 2) + bits x l := by simp [bits]
    rw [List.foldl_cons, eb]
    by_cases hb : x / t.1 % 2 = 1
    · have es : optExpHiStep x res t = res * t.2.1 / t.2.2 := by unfold optExpHiStep; rw [if_pos hb]
      rw [es, hb, Int.mul_one]
      have hn : 0 ≤ res * t.2.1 / t.2.2 := Int.ediv_nonneg (Int.mul_nonneg h0 h1) h2.le
      refine (optExpHi_fold_le l (fun t h => hl t (List.mem_cons_of_mem _ h)) _ hn).trans ?_
      push_cast
      rw [add_div, Real.exp_add, ← mul_assoc]
      refine mul_le_mul_of_nonneg_right ?_ (Real.exp_pos _).le
      refine (ediv_le_real h2).trans ?_
      push_cast
      rw [mul_div_assoc]
      exact mul_le_mul_of_nonneg_left hf h0'
    · have es : optExpHiStep x res t = res := by unfold optExpHiStep; rw [if_neg hb]
      have e0 : x / t.1 % 2 = 0 := by omega
      rw [es, e0, Int.mul_zero, Int.zero_add]
      exact optExpHi_fold_le l (fun t h => hl t (List.mem_cons_of_mem _ h)) _ h0

theorem bits_all {x : Int} (h0 : 0 ≤ x) (h1 : x < OPT_EXP_MAX_VAL) : x % optExpMod + bits x optExpHi = x := by
  unfold bits optExpHi optExpMod
  unfold OPT_EXP_MAX_VAL at h1
  simp only [List.map_cons, List.map_nil, List.sum_cons, List.sum_nil]
  omega

theorem optimalExp_le {x : Int} (h0 : 0 ≤ x) (h1 : x < OPT_EXP_MAX_VAL) : (optimalExp x : ℝ) ≤ Fr * exp (x / Fr) := by
  have hm : 0 ≤ x % optExpMod := Int.emod_nonneg _ (by decide)
  have h := taylor_exp (x := x % optExpMod) (Q := FIXED_1) F_pos hm optExpDen_pos optExp_facts
  have e : optExpLoStep (x % optExpMod) = taylorStep (x % optExpMod) FIXED_1 := rfl
  unfold optimalExp
  simp only
  rw [e]
  have hr : 0 ≤ (optExpCoeffs.foldl (taylorStep (x % optExpMod) FIXED_1) (x % optExpMod, 0)).2 / optExpDen + x % optExpMod + FIXED_1 := by
    have := (optExp_fold_nonneg hm _ optExpCoeffs_nonneg (x % optExpMod, 0) hm (Int.le_refl 0)).2
    rw [e] at this
    have := Int.ediv_nonneg this optExpDen_pos.le
    have := F_pos
    omega
  refine (optExpHi_fold_le optExpHi (fun _ h => h) _ hr).trans ?_
  rw [F_cast] at h
  refine (mul_le_mul_of_nonneg_right h (Real.exp_pos _).le).trans ?_
  rw [mul_assoc, ← Real.exp_add, ← add_div]
  have := bits_all h0 h1
  have e2 : ((x % optExpMod : Int) : ℝ) + bits x optExpHi = x := by exact_mod_cast this
  rw [e2]

end Verif.Formula
