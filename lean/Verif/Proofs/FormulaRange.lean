import Verif.Proofs.FormulaInt
/-!
Shape and range of the three public functions of the conversion formula.
-/
namespace Verif.Formula

/-- The ranges every call must respect: positive amounts, a weight in 1..1000000 ppm. -/
def ValidWeight (w : Int) : Prop := 1 ≤ w ∧ w ≤ 1000000

instance (w : Int) : Decidable (ValidWeight w) := by unfold ValidWeight; infer_instance

theorem maxNum_eq : MAX_NUM = 2 ^ 129 := by decide

section
variable {s b w d : Int}

theorem purchase_invalid (h : ¬ (0 < s ∧ 0 < b ∧ ValidWeight w)) :
    calculatePurchaseReturn s b w d = .error (.revert "Invalid input") := by
  unfold calculatePurchaseReturn
  rw [if_pos]
  rintro ⟨h1, h2, h3, h4⟩
  exact h ⟨h1, h2, by omega, by unfold MAX_WEIGHT at h3; omega⟩

theorem purchase_valid (h1 : 0 < s) (h2 : 0 < b) (hw : ValidWeight w) : calculatePurchaseReturn s b w d =
    if d = 0 then .ok 0
    else if w = 1000000 then .ok ((s * d) / b)
    else if 2 ^ 129 ≤ d + b then .error (.revert "Invalid input")
    else
      let r := expPart ((baseLog ((d + b) * FIXED_1 / b) * w) / 1000000)
      .ok (((s * r.1) >>> r.2) - s) := by
  obtain ⟨h3, h4⟩ := hw
  unfold calculatePurchaseReturn
  rw [if_neg (by unfold MAX_WEIGHT; simp; omega)]
  by_cases h : d = 0
  · rw [if_pos h, if_pos h]
  rw [if_neg h, if_neg h]
  by_cases hm : w = 1000000
  · rw [if_pos (show w = MAX_WEIGHT from hm), if_pos hm, Int.fdiv_eq_ediv_of_nonneg _ (by omega)]
  rw [if_neg (show ¬ w = MAX_WEIGHT from hm), if_neg hm]
  by_cases hn : 2 ^ 129 ≤ d + b
  · rw [if_pos hn, power_error (by rw [maxNum_eq]; omega)]
  · rw [if_neg hn, power_eq (by rw [maxNum_eq]; omega) (by omega) (by decide)]
    rw [Int.fdiv_eq_ediv_of_nonneg _ (show (0 : Int) ≤ MAX_WEIGHT by decide), Int.fdiv_eq_ediv_of_nonneg _ (show 0 ≤ b by omega)]
    rfl

theorem sale_invalid (h : ¬ (0 < s ∧ 0 < b ∧ ValidWeight w ∧ d ≤ s)) :
    calculateSaleReturn s b w d = .error (.revert "Invalid input") := by
  unfold calculateSaleReturn
  rw [if_pos]
  rintro ⟨h1, h2, ⟨h3, h4⟩, h5⟩
  exact h ⟨h1, h2, ⟨by omega, by unfold MAX_WEIGHT at h3; omega⟩, h5⟩

theorem sale_valid (h1 : 0 < s) (h2 : 0 < b) (hw : ValidWeight w) (hd : d ≤ s) : calculateSaleReturn s b w d =
    if d = 0 then .ok 0
    else if d = s then .ok b
    else if w = 1000000 then .ok ((b * d) / s)
    else if 2 ^ 129 ≤ s then .error (.revert "Invalid input")
    else
      let r := expPart ((baseLog (s * FIXED_1 / (s - d)) * 1000000) / w)
      if r.1 = 0 then .error (.python "ZeroDivisionError")
      else .ok ((b * r.1 - b * 2 ^ r.2).fdiv r.1) := by
  obtain ⟨h3, h4⟩ := hw
  unfold calculateSaleReturn
  rw [if_neg (by unfold MAX_WEIGHT; simp; omega)]
  by_cases h : d = 0
  · rw [if_pos h, if_pos h]
  rw [if_neg h, if_neg h]
  by_cases h : d = s
  · rw [if_pos h, if_pos h]
  rw [if_neg h, if_neg h]
  by_cases hm : w = 1000000
  · rw [if_pos (show w = MAX_WEIGHT from hm), if_pos hm, Int.fdiv_eq_ediv_of_nonneg _ (by omega)]
  rw [if_neg (show ¬ w = MAX_WEIGHT from hm), if_neg hm]
  by_cases hn : 2 ^ 129 ≤ s
  · rw [if_pos hn, power_error (by rw [maxNum_eq]; omega)]
  · rw [if_neg hn, power_eq (by rw [maxNum_eq]; omega) (by omega) (by omega)]
    rw [Int.fdiv_eq_ediv_of_nonneg _ (by omega), Int.fdiv_eq_ediv_of_nonneg _ (by omega)]
    rfl

end

section
variable {fb fw tb tw a : Int}

theorem cross_invalid (h : ¬ (0 < fb ∧ ValidWeight fw ∧ 0 < tb ∧ ValidWeight tw)) :
    calculateCrossConnectorReturn fb fw tb tw a = .error (.revert "Invalid input") := by
  unfold calculateCrossConnectorReturn
  rw [if_pos]
  rintro ⟨h1, ⟨h2, h3⟩, h4, h5, h6⟩
  exact h ⟨h1, ⟨by omega, by unfold MAX_WEIGHT at h2; omega⟩, h4, by omega, by unfold MAX_WEIGHT at h5; omega⟩

theorem cross_valid (h1 : 0 < fb) (hf : ValidWeight fw) (h2 : 0 < tb) (ht : ValidWeight tw) :
    calculateCrossConnectorReturn fb fw tb tw a =
    if fw = tw then
      if fb + a = 0 then .error (.python "ZeroDivisionError") else .ok ((tb * a).fdiv (fb + a))
    else if 2 ^ 129 ≤ fb + a then .error (.revert "Invalid input")
    else
      let r := expPart ((baseLog ((fb + a) * FIXED_1 / fb) * fw) / tw)
      if r.1 = 0 then .error (.python "ZeroDivisionError")
      else .ok ((tb * r.1 - tb * 2 ^ r.2).fdiv r.1) := by
  obtain ⟨h3, h4⟩ := hf
  obtain ⟨h5, h6⟩ := ht
  unfold calculateCrossConnectorReturn
  rw [if_neg (by unfold MAX_WEIGHT; simp; omega)]
  by_cases hm : fw = tw
  · rw [if_pos hm, if_pos hm]
  rw [if_neg hm, if_neg hm]
  by_cases hn : 2 ^ 129 ≤ fb + a
  · rw [if_pos hn, power_error (by rw [maxNum_eq]; omega)]
  · rw [if_neg hn, power_eq (by rw [maxNum_eq]; omega) (by omega) (by omega)]
    rw [Int.fdiv_eq_ediv_of_nonneg _ (by omega), Int.fdiv_eq_ediv_of_nonneg _ (by omega)]

end

/-! ### The exponents that occur are not negative -/

theorem exponent_nonneg {bn bd en ed : Int} (hd : 0 < bd) (hb : bd ≤ bn) (hn : 0 ≤ en) (he : 0 < ed) :
    0 ≤ baseLog (bn * FIXED_1 / bd) * en / ed := by
  have h := base_ge hd hb
  rw [Int.fdiv_eq_ediv_of_nonneg _ (by omega)] at h
  exact Int.ediv_nonneg (Int.mul_nonneg (baseLog_nonneg h) hn) (by omega)

theorem expPart_pos {x : Int} (hx : 0 ≤ x) : 0 < (expPart x).1 :=
  Int.lt_of_lt_of_le (by positivity) (expPart_ge hx)

/-- `balance - balance / ratio`, rounded down, for a ratio `r/2^p ≥ 1`. -/
theorem part_range {b r : Int} {p : Nat} (hb : 0 < b) (hr : 2 ^ p ≤ r) :
    0 ≤ (b * r - b * 2 ^ p).fdiv r ∧ (b * r - b * 2 ^ p).fdiv r < b := by
  have hp : (0 : Int) < 2 ^ p := by positivity
  have h0 : 0 < r := by omega
  rw [Int.fdiv_eq_ediv_of_nonneg _ (by omega)]
  refine ⟨Int.ediv_nonneg ?_ (by omega), ?_⟩
  · have := Int.mul_le_mul_of_nonneg_left hr (Int.le_of_lt hb); omega
  · rw [Int.ediv_lt_iff_lt_mul h0]
    have := Int.mul_pos hb hp
    omega

end Verif.Formula
