import Verif.Proofs.GeneratorLoops
import Verif.Props.Formula
/-!
C60: the constants of the conversion formula are what the scripts in `contracts/formula/auto_generate` produce.

`Generator` holds the model of the scripts, `Formula` that of the contract. The scripts' integers are natural numbers, the
contract's are integers: `Nat → Int` coercions appear where the two are compared. What the scripts compute with Python's
`Decimal` is given up to rounding in the hundredth digit (`Generator.Rounded`), whichever way it goes.
-/
set_option autoImplicit false
namespace Verif.Generator

/-- The search finds the largest 256-bit argument a function accepts, if it accepts 0 and everything below what it accepts. -/
theorem C60_binary_search {α : Type} (f : Nat → Option α) (h0 : f 0 ≠ none) (hdown : ∀ x y, x ≤ y → f y ≠ none → f x ≠ none) (m : Nat) :
    binarySearch f = some m ↔ m < 2 ^ 256 ∧ f m ≠ none ∧ ∀ x, x < 2 ^ 256 → f x ≠ none → x ≤ m := by
  simp only [← Option.isSome_iff_ne_none] at *
  exact binarySearch_eq h0 hdown m

-- Neither of the two ends of the search is special.
example : binarySearch (fun x => if x ≤ 12345 then some x else none) = some 12345 ∧
    binarySearch (fun x => if x = 0 then some x else none) = some 0 ∧ binarySearch (fun x => some x) = some (2 ^ 256 - 1) := by
  refine ⟨?_, ?_, ?_⟩ <;> rw [C60_binary_search]
  all_goals try (intro x y h; split <;> split <;> simp <;> omega)
  all_goals try simp
  all_goals omega

/-- The entry for any number of coefficients and any precision: the largest argument for which nothing in the computation
exceeds 256 bits. -/
theorem C60_max_exp {n p : Nat} (hn : 2 ≤ n) (hp : p < 256) (m : Nat) :
    (binarySearch fun x => generalExp x (getCoefficients n) p) = some m ↔
      generalExp m (getCoefficients n) p ≠ none ∧ ∀ x, generalExp x (getCoefficients n) p ≠ none → x ≤ m := by
  obtain ⟨k, rfl⟩ : ∃ k, n = k + 2 := ⟨n - 2, by omega⟩
  have e : getCoefficients (k + 2) = (k + 2 - 1).factorial / (0 + 1).factorial ::
      ((List.range k).map fun i => (k + 2 - 1).factorial / (i + 1 + 1).factorial) := by
    unfold getCoefficients
    rw [show k + 2 - 1 = k + 1 from rfl, List.range_succ_eq_map, List.map_cons, List.map_map]
    rfl
  have hc : (k + 2 - 1).factorial / (0 + 1).factorial ≠ 0 := by
    simp [Nat.factorial_ne_zero]
  rw [e, maxExp_eq hc hp]
  simp only [← Option.isSome_iff_ne_none, Option.isSome_iff_exists, forall_exists_index]

/-- The coefficients of the contract's general exponential are the script's. -/
theorem C60_coefficients : (getCoefficients NUM_OF_COEFFICIENTS).map (fun c : Nat => (c : Int)) = Formula.generalExpDen :: Formula.generalExpCoeffs :=
  coefficients_eq

/-- The contract's table of exponents is the one the script prints, at every precision the contract uses. -/
theorem C60_table : ∃ A, getMaxExpArray (getCoefficients NUM_OF_COEFFICIENTS) (MAX_PRECISION + 1) = some A ∧ A.length = 128 ∧
    ∀ p, 32 ≤ p → p ≤ 127 → (((maxExpArrayShl A).getD p 0 : Nat) : Int) = Formula.maxExp p := by
  obtain ⟨g, h1, _, h3⟩ := array_eq
  refine ⟨_, h1, by simp, fun p h4 h5 => ?_⟩
  obtain ⟨k, rfl⟩ : ∃ k, p = k + 32 := ⟨p - 32, by omega⟩
  obtain ⟨f1, _, _⟩ := table_facts k (by omega)
  rw [f1]
  unfold maxExpArrayShl
  have e : ∀ {f : Nat → Nat}, ((List.range 128).map f).getD (k + 32) 0 = f (k + 32) := by
    intro f
    rw [List.getD_eq_getElem?_getD, List.getElem?_map, List.getElem?_range (by omega)]
    rfl
  rw [List.length_map, List.length_range, e, e, h3 _ h4 h5]
  rfl

/-- The script's `general_exp` works for an argument exactly if the contract's needs no number beyond 256 bits, and then
both yield the same. -/
theorem C60_general_exp (x p r : Nat) : generalExp x (getCoefficients NUM_OF_COEFFICIENTS) p = some r ↔
    (∀ v ∈ (Formula.generalExpR x p).seen, 0 ≤ v ∧ v < 2 ^ 256) ∧ Formula.generalExp x p = r := by
  rw [generalExp_iff, Formula.generalExpR_val]
  exact Iff.rfl

/-- The table says exactly where the contract's general exponential needs no number beyond 256 bits. -/
theorem C60_table_exact {x p : Nat} (h1 : 32 ≤ p) (h2 : p ≤ 127) :
    (∀ v ∈ (Formula.generalExpR x p).seen, 0 ≤ v ∧ v < 2 ^ 256) ↔ (x : Int) * 2 ^ (127 - p) ≤ Formula.maxExp p := by
  have hm := table_max h1 h2
  obtain ⟨k, rfl⟩ : ∃ k, p = k + 32 := ⟨p - 32, by omega⟩
  obtain ⟨f1, f2, _⟩ := table_facts k (by omega)
  obtain ⟨c, cs, e, hc⟩ := coefficients_cons
  rw [e, maxExp_eq hc (by omega)] at hm
  have key : (∀ v ∈ (Formula.generalExpR x (k + 32)).seen, 0 ≤ v ∧ v < 2 ^ 256) ↔ x ≤ unshifted (k + 32) := by
    constructor
    · intro h
      have hn : (0 : Int) ≤ Formula.generalExp x (k + 32) := by
        rw [← Formula.generalExpR_val]
        have h : Narrow (Formula.generalExpR x (k + 32)) := h
        rw [generalExpR_eq] at h ⊢
        simp only [narrow_bind, val_bind, narrow_comp, val_comp] at h ⊢
        exact h.2.2.2.2.1
      obtain ⟨r, hr⟩ := Int.eq_ofNat_of_zero_le hn
      exact hm.2 x r (e ▸ (C60_general_exp x _ r).mpr ⟨h, hr⟩)
    · intro h
      obtain ⟨r, hr⟩ := Option.isSome_iff_exists.mp f2
      obtain ⟨r', hr', _⟩ := generalExp_mono h hr
      exact ((C60_general_exp _ _ _).mp hr').1
  rw [key, f1, Nat.shiftLeft_eq]
  generalize 127 - (k + 32) = j
  have : 0 < 2 ^ j := Nat.two_pow_pos j
  constructor
  · intro h
    have := Nat.mul_le_mul_right (2 ^ j) h
    have e2 : (unshifted (k + 32) + 1) * 2 ^ j = unshifted (k + 32) * 2 ^ j + 2 ^ j := by ring
    have : x * 2 ^ j ≤ (unshifted (k + 32) + 1) * 2 ^ j - 1 := by omega
    exact_mod_cast this
  · intro h
    have h : x * 2 ^ j ≤ (unshifted (k + 32) + 1) * 2 ^ j - 1 := by exact_mod_cast h
    have h : x * 2 ^ j < (unshifted (k + 32) + 1) * 2 ^ j := by
      have : 0 < (unshifted (k + 32) + 1) * 2 ^ j := by positivity
      omega
    exact Nat.lt_succ_iff.mp (Nat.lt_of_mul_lt_mul_right h)

-- At the top precision: the last exponent that fits, and the first that does not.
example : (∀ v ∈ (Formula.generalExpR 0x00857ddf0117efa215952912839f6473e6 127).seen, 0 ≤ v ∧ v < 2 ^ 256) ∧
    ∃ v ∈ (Formula.generalExpR 0x00857ddf0117efa215952912839f6473e7 127).seen, 2 ^ 256 ≤ v := by
  constructor <;> decide +kernel

/-- The terms of the optimal logarithm: the script's are the contract's, and the first of them bounds the domain. -/
theorem C60_log_terms {hi : List (Nat × Nat)} (h : LogHiTerms hi) :
    (hi.tail.map fun t => ((t.2 : Int), (t.1 : Int))) = Formula.optLogHi ∧ hi.head?.map (fun t => (t.2 : Int)) = some Formula.OPT_LOG_MAX_VAL := by
  rw [logHiTerms_iff] at h
  subst h
  exact ⟨logHi_eq, logMax_eq⟩

/-- The terms of the optimal exponential: the script's are the contract's, and the last of them bounds the domain. -/
theorem C60_exp_terms {hi : List (Nat × Nat × Nat)} (h : ExpHiTerms hi) :
    (hi.dropLast.map fun t => ((t.1 : Int), (t.2.1 : Int), (t.2.2 : Int))) = Formula.optExpHi ∧
      hi.getLast?.map (fun t => (t.1 : Int)) = some Formula.OPT_EXP_MAX_VAL := by
  rw [expHiTerms_iff] at h
  subst h
  exact ⟨expHi_eq, expMax_eq⟩

/-- The two scripts do come to an end: there are such terms, and the series stops growing, where the contract's series does. -/
theorem C60_series : (∃ hi, LogHiTerms hi ∧ ∀ k, 20 ≤ k → ∃ lo, logLoTerms k hi = some lo ∧
      (lo.map fun t => ((t.1 : Int), (t.2 : Int))) = Formula.optLogLo) ∧
    (∃ hi, ExpHiTerms hi ∧ ∀ k, 25 ≤ k → ∃ lo, expLoTerms k hi = some lo ∧
      (lo.map fun c : Nat => (c : Int)) = Formula.optExpDen :: Formula.optExpCoeffs) := by
  constructor
  · obtain ⟨lo, h1, h2⟩ := Option.map_eq_some_iff.mp logLo_eq
    exact ⟨_, (logHiTerms_iff _).mpr rfl, fun k hk => ⟨lo, logLoTerms_more h1 hk, h2⟩⟩
  · obtain ⟨lo, h1, h2⟩ := Option.map_eq_some_iff.mp expLo_eq
    exact ⟨_, (expHiTerms_iff _).mpr rfl, fun k hk => ⟨lo, expLoTerms_more h1 hk, h2⟩⟩

/-- The optimal logarithm generated by the script computes what the contract's does, on its whole domain, without any
number beyond 256 bits (`optimalLog` yields nothing otherwise). -/
theorem C60_optimal_log {hi lo : List (Nat × Nat)} {k : Nat} (h1 : LogHiTerms hi) (h2 : logLoTerms k hi = some lo) {x : Nat}
    (hx : Formula.FIXED_1 ≤ x) (hx2 : x < Formula.OPT_LOG_MAX_VAL) :
    ∃ r : Nat, optimalLog x hi lo FIXED_1 = some r ∧ Formula.optimalLog x = r := by
  rw [logHiTerms_iff] at h1
  subst h1
  obtain ⟨lo', e1, e2⟩ := Option.map_eq_some_iff.mp logLo_eq
  have e : lo = lo' := by
    have a := logLoTerms_more h2 (Nat.le_max_left k 20)
    have b := logLoTerms_more e1 (Nat.le_max_right k 20)
    rw [a] at b; injection b
  subst e
  rw [← (Formula.C50_optimal_log hx hx2).1]
  exact optimalLog_of logHi_eq e2 (Formula.C50_optimal_log hx hx2).2

/-- The same for the optimal exponential, for every argument. -/
theorem C60_optimal_exp {hi : List (Nat × Nat × Nat)} {lo : List Nat} {k : Nat} (h1 : ExpHiTerms hi) (h2 : expLoTerms k hi = some lo) (x : Nat) :
    ∃ r : Nat, optimalExp x hi lo FIXED_1 = some r ∧ Formula.optimalExp x = r := by
  rw [expHiTerms_iff] at h1
  subst h1
  obtain ⟨lo', e1, e2⟩ := Option.map_eq_some_iff.mp expLo_eq
  have e : lo = lo' := by
    have a := expLoTerms_more h2 (Nat.le_max_left k 25)
    have b := expLoTerms_more e1 (Nat.le_max_right k 25)
    rw [a] at b; injection b
  subst e
  rw [← (Formula.C50_optimal_exp x).1]
  exact optimalExp_of expHi_eq e2 (Formula.C50_optimal_exp x).2

/-- The factors of the natural logarithm of 2: the script's are the contract's. -/
theorem C60_ln2 (num den : Nat) : Ln2Factors num den ↔ (num : Int) = Formula.LN2_NUMERATOR ∧ (den : Int) = Formula.LN2_DENOMINATOR := by
  rw [ln2Factors_iff, show Formula.LN2_NUMERATOR = ((5275695611177340518812009417546793976 : Nat) : Int) by decide +kernel,
    show Formula.LN2_DENOMINATOR = ((7611219895485218073587121647846406784 : Nat) : Int) by decide +kernel, Int.natCast_inj, Int.natCast_inj]

/-- The scaling factors and the range of precisions. -/
theorem C60_scaling : (FIXED_1 : Int) = Formula.FIXED_1 ∧ (FIXED_2 : Int) = Formula.FIXED_2 ∧ (MAX_NUM : Int) = Formula.MAX_NUM ∧
    MIN_PRECISION = Formula.MIN_PRECISION ∧ MAX_PRECISION = Formula.MAX_PRECISION := by
  decide +kernel

/-- The growth factor is the largest with which every entry of the table can be reached from the first without exceeding
256 bits, and the entries so computed are not above those of the table. -/
theorem C60_growth {A : List Nat} (hA : getMaxExpArray (getCoefficients NUM_OF_COEFFICIENTS) (MAX_PRECISION + 1) = some A) :
    ∃ g, growthFactor (getCoefficients NUM_OF_COEFFICIENTS) A = some g ∧
      (∀ p, 32 ≤ p → p ≤ 127 → ∃ m, getMaxExp (getCoefficients NUM_OF_COEFFICIENTS) A p g = some m ∧ m ≤ A.getD p 0) ∧
      ∀ f, g < f → f < 2 ^ 256 → ∃ p, 32 ≤ p ∧ p ≤ 127 ∧ getMaxExp (getCoefficients NUM_OF_COEFFICIENTS) A p f = none := by
  obtain ⟨c, cs, e, hc⟩ := coefficients_cons
  obtain ⟨g, h1, h2, _⟩ := array_eq
  rw [hA] at h1
  injection h1 with h1
  rw [e] at h2 ⊢
  obtain ⟨gf, g1, g2, g3⟩ := growth (A := A) (cs := cs) hc
  refine ⟨gf, g1, fun p hp1 hp2 => ?_, g3⟩
  obtain ⟨m, hm⟩ := g2 p hp1 hp2
  refine ⟨m, hm, ?_⟩
  rcases Nat.eq_or_lt_of_le hp1 with rfl | hlt
  · unfold getMaxExp at hm
    rw [show (32 - MIN_PRECISION) = 0 from rfl] at hm
    injection hm with hm
    exact hm.ge
  · unfold getMaxExp at hm
    obtain ⟨k, hk⟩ : ∃ k, p - MIN_PRECISION = k + 1 := ⟨p - 33, by unfold MIN_PRECISION; omega⟩
    rw [hk] at hm
    obtain ⟨v, hv⟩ := getMaxExpLoop_last _ _ _ hm
    have hmax := ((maxExp_eq hc (by omega) _).mp (h2 p (by omega))).2 m v hv
    rw [h1, List.getD_eq_getElem?_getD, List.getElem?_map, List.getElem?_range (by omega)]
    exact hmax

/-- What "reached from the first" means: the first entry is multiplied by the factor and divided by 2^127, once for each bit of
precision above 32; the products and the exponentials on the way must not exceed 256 bits. -/
theorem C60_growth_steps {cs A : List Nat} {p f m : Nat} :
    getMaxExp cs A p f = some m ↔ m = (fun e => e * f / 2 ^ 127)^[p - 32] (A.getD 32 0) ∧
      ∀ k, k < p - 32 → (fun e => e * f / 2 ^ 127)^[k] (A.getD 32 0) * f < 2 ^ 256 ∧
        generalExp ((fun e => e * f / 2 ^ 127)^[k + 1] (A.getD 32 0)) cs p ≠ none := by
  have key : ∀ (k e : Nat), getMaxExpLoop cs p f k e = some m ↔ m = (fun e => e * f / 2 ^ 127)^[k] e ∧
      ∀ j, j < k → (fun e => e * f / 2 ^ 127)^[j] e * f < 2 ^ 256 ∧ generalExp ((fun e => e * f / 2 ^ 127)^[j + 1] e) cs p ≠ none := by
    intro k
    induction k with
    | zero => intro e; simp [getMaxExpLoop, eq_comm]
    | succ k ih =>
      intro e
      have hs : getMaxExpLoop cs p f (k + 1) e = some m ↔
          (e * f < 2 ^ 256 ∧ generalExp (e * f / 2 ^ 127) cs p ≠ none) ∧ getMaxExpLoop cs p f k (e * f / 2 ^ 127) = some m := by
        rw [getMaxExpLoop]
        simp only [safeMul_some, MAX_PRECISION, Nat.shiftRight_eq_div_pow, Option.bind_eq_bind, Option.bind_eq_some_iff, Nat.one_shiftLeft]
        constructor
        · rintro ⟨q, h1, v, h2, h3⟩
          obtain ⟨h0, rfl⟩ := h1
          exact ⟨⟨h0, by rw [h2]; simp⟩, h3⟩
        · rintro ⟨⟨h0, h2⟩, h3⟩
          obtain ⟨v, hv⟩ := Option.ne_none_iff_exists'.mp h2
          exact ⟨_, ⟨h0, rfl⟩, v, hv, h3⟩
      rw [hs, ih]
      constructor
      · rintro ⟨h0, h1, h2⟩
        refine ⟨by rw [h1, Function.iterate_succ_apply], fun j hj => ?_⟩
        cases j with
        | zero => simpa using h0
        | succ j => have := h2 j (by omega); simpa only [Function.iterate_succ_apply] using this
      · rintro ⟨h1, h2⟩
        refine ⟨by simpa using h2 0 (by omega), by rw [h1, Function.iterate_succ_apply], fun j hj => ?_⟩
        have := h2 (j + 1) (by omega)
        simpa only [Function.iterate_succ_apply] using this
  exact key _ _

end Verif.Generator
