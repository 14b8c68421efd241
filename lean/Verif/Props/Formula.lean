import Verif.Proofs.FormulaRange
import Verif.Proofs.FormulaWidth
/-!
Properties C42-C44, C48-C50: the conversion formula over the integers. Every theorem is followed by concrete cases.

`calculatePurchaseReturn supply balance weight deposit`, `calculateSaleReturn supply balance weight sold` and
`calculateCrossConnectorReturn fromBalance fromWeight toBalance toWeight amount` are the three public functions of the
formula; amounts are arbitrary integers, weights are in ppm.
-/
set_option autoImplicit false
namespace Verif.Formula

section
variable {s b w d fb fw tb tw a r : Int}

/-! ### C42: input validation -/

/-- A purchase quote fails, always with "Invalid input", exactly on the listed inputs: whatever the integers. -/
theorem C42_purchase : (∃ e, calculatePurchaseReturn s b w d = .error e) ↔
    ¬ (0 < s ∧ 0 < b ∧ 1 ≤ w ∧ w ≤ 1000000) ∨ (d ≠ 0 ∧ w ≠ 1000000 ∧ 2 ^ 129 ≤ d + b) := by
  by_cases hv : 0 < s ∧ 0 < b ∧ ValidWeight w
  · obtain ⟨h1, h2, h3⟩ := hv
    rw [purchase_valid h1 h2 h3]
    have h3' : 1 ≤ w ∧ w ≤ 1000000 := h3
    simp only [h1, h2, h3', and_self, not_true_eq_false, false_or]
    by_cases hd : d = 0
    · simp [hd]
    by_cases hw : w = 1000000
    · simp [hd, hw]
    by_cases hb : 2 ^ 129 ≤ d + b
    · rw [if_neg hd, if_neg hw, if_pos hb]; exact ⟨fun _ => ⟨hd, hw, hb⟩, fun _ => ⟨_, rfl⟩⟩
    · rw [if_neg hd, if_neg hw, if_neg hb]
      exact ⟨fun h => (by obtain ⟨e, h⟩ := h; cases h), fun h => absurd h.2.2 hb⟩
  · rw [purchase_invalid hv]
    exact ⟨fun _ => .inl hv, fun _ => ⟨_, rfl⟩⟩

/-- A sale quote reverts with "Invalid input" exactly on the listed inputs: whatever the integers. -/
theorem C42_sale : calculateSaleReturn s b w d = .error (.revert "Invalid input") ↔
    ¬ (0 < s ∧ 0 < b ∧ 1 ≤ w ∧ w ≤ 1000000 ∧ d ≤ s) ∨ (d ≠ 0 ∧ d ≠ s ∧ w ≠ 1000000 ∧ 2 ^ 129 ≤ s) := by
  by_cases hv : 0 < s ∧ 0 < b ∧ ValidWeight w ∧ d ≤ s
  · obtain ⟨h1, h2, h3, h4⟩ := hv
    rw [sale_valid h1 h2 h3 h4]
    have h3' : 1 ≤ w ∧ w ≤ 1000000 := h3
    simp only [h1, h2, h3', h4, and_self, not_true_eq_false, false_or]
    by_cases hd : d = 0
    · simp [hd]
    by_cases hs : d = s
    · rw [if_neg hd, if_pos hs]; simp [hs]
    by_cases hw : w = 1000000
    · simp [hd, hs, hw]
    by_cases hb : 2 ^ 129 ≤ s
    · rw [if_neg hd, if_neg hs, if_neg hw, if_pos hb]; exact ⟨fun _ => ⟨hd, hs, hw, hb⟩, fun _ => rfl⟩
    · rw [if_neg hd, if_neg hs, if_neg hw, if_neg hb]
      refine ⟨fun h => ?_, fun h => absurd h.2.2.2 hb⟩
      split at h <;> cases h
  · rw [sale_invalid hv]
    exact ⟨fun _ => .inl fun h => hv ⟨h.1, h.2.1, ⟨h.2.2.1, h.2.2.2.1⟩, h.2.2.2.2⟩, fun _ => rfl⟩

/-- Selling a non-negative amount fails in no other way (no division by zero). -/
theorem C42_sale_total {e : Err} (hd : 0 ≤ d) (h : calculateSaleReturn s b w d = .error e) : e = .revert "Invalid input" := by
  by_cases hv : 0 < s ∧ 0 < b ∧ ValidWeight w ∧ d ≤ s
  · obtain ⟨h1, h2, h3, h4⟩ := hv
    rw [sale_valid h1 h2 h3 h4] at h
    split at h; · cases h
    split at h; · cases h
    split at h; · cases h
    split at h; · cases h; rfl
    rename_i h5 h6 h7 h8
    have hx := exponent_nonneg (bn := s) (bd := s - d) (en := 1000000) (ed := w) (by omega) (by omega) (by omega)
      (by have := h3.1; omega)
    have := expPart_pos hx
    simp only at h
    rw [if_neg (by omega)] at h
    cases h
  · rw [sale_invalid hv] at h; cases h; rfl

/-- A cross-connector quote reverts with "Invalid input" exactly on the listed inputs: whatever the integers. -/
theorem C42_cross : calculateCrossConnectorReturn fb fw tb tw a = .error (.revert "Invalid input") ↔
    ¬ (0 < fb ∧ 1 ≤ fw ∧ fw ≤ 1000000 ∧ 0 < tb ∧ 1 ≤ tw ∧ tw ≤ 1000000) ∨ (fw ≠ tw ∧ 2 ^ 129 ≤ fb + a) := by
  by_cases hv : 0 < fb ∧ ValidWeight fw ∧ 0 < tb ∧ ValidWeight tw
  · obtain ⟨h1, h2, h3, h4⟩ := hv
    rw [cross_valid h1 h2 h3 h4]
    have h2' : 1 ≤ fw ∧ fw ≤ 1000000 := h2
    have h4' : 1 ≤ tw ∧ tw ≤ 1000000 := h4
    simp only [h1, h2', h3, h4', and_self, not_true_eq_false, false_or]
    by_cases hw : fw = tw
    · rw [if_pos hw]
      refine ⟨fun h => ?_, fun h => absurd hw h.1⟩
      split at h <;> cases h
    by_cases hb : 2 ^ 129 ≤ fb + a
    · rw [if_neg hw, if_pos hb]; exact ⟨fun _ => ⟨hw, hb⟩, fun _ => rfl⟩
    · rw [if_neg hw, if_neg hb]
      refine ⟨fun h => ?_, fun h => absurd h.2 hb⟩
      split at h <;> cases h
  · rw [cross_invalid hv]
    exact ⟨fun _ => .inl fun h => hv ⟨h.1, ⟨h.2.1, h.2.2.1⟩, h.2.2.2.1, h.2.2.2.2⟩, fun _ => rfl⟩

/-- Converting a non-negative amount fails in no other way (no division by zero). -/
theorem C42_cross_total {e : Err} (hd : 0 ≤ a) (h : calculateCrossConnectorReturn fb fw tb tw a = .error e) :
    e = .revert "Invalid input" := by
  by_cases hv : 0 < fb ∧ ValidWeight fw ∧ 0 < tb ∧ ValidWeight tw
  · obtain ⟨h1, h2, h3, h4⟩ := hv
    rw [cross_valid h1 h2 h3 h4] at h
    split at h
    · rw [if_neg (by omega)] at h; cases h
    split at h; · cases h; rfl
    have hx := exponent_nonneg (bn := fb + a) (bd := fb) (en := fw) (ed := tw) (by omega) (by omega)
      (by have := h2.1; omega) (by have := h4.1; omega)
    have := expPart_pos hx
    simp only at h
    rw [if_neg (by omega)] at h
    cases h
  · rw [cross_invalid hv] at h; cases h; rfl

-- Both sides of the boundary are met: a base of 2^129 is refused, one below it is not, and neither is a larger one when
-- the power function is not needed.
example : calculatePurchaseReturn 1000 1 500000 (2 ^ 129 - 1) = .error (.revert "Invalid input") := by decide +kernel
set_option maxRecDepth 100000 in
example : ∃ r, calculatePurchaseReturn 1000 1 500000 (2 ^ 129 - 2) = .ok r :=
  ⟨calculatePurchaseReturn 1000 1 500000 (2 ^ 129 - 2) |>.toOption.get!, by decide +kernel⟩
example : calculatePurchaseReturn 1000 1 1000000 (2 ^ 140) = .ok (1000 * 2 ^ 140) := by decide +kernel
example : calculateSaleReturn (2 ^ 129) 5 500000 7 = .error (.revert "Invalid input") := by decide +kernel
example : calculateSaleReturn (2 ^ 129) 5 500000 (2 ^ 129) = .ok 5 := by decide +kernel
example : calculateCrossConnectorReturn 1000 0 1000 5 7 = .error (.revert "Invalid input") := by decide +kernel
-- A negative amount (which no contract passes on) can divide by zero: the sign matters in `C42_cross_total`.
example : calculateCrossConnectorReturn 1000 5 1000 5 (-1000) = .error (.python "ZeroDivisionError") := by decide +kernel

/-! ### C43: special cases -/

/-- Zero in, zero out. -/
theorem C43_purchase_zero (h1 : 0 < s) (h2 : 0 < b) (hw : 1 ≤ w ∧ w ≤ 1000000) : calculatePurchaseReturn s b w 0 = .ok 0 := by
  rw [purchase_valid h1 h2 hw]; rfl

theorem C43_sale_zero (h1 : 0 < s) (h2 : 0 < b) (hw : 1 ≤ w ∧ w ≤ 1000000) : calculateSaleReturn s b w 0 = .ok 0 := by
  rw [sale_valid h1 h2 hw (by omega)]; rfl

/-- Zero in, zero out across connectors, whatever the weights: the power function is exact at 1. -/
theorem C43_cross_zero (h1 : 0 < fb) (hf : 1 ≤ fw ∧ fw ≤ 1000000) (h2 : 0 < tb) (ht : 1 ≤ tw ∧ tw ≤ 1000000)
    (hb : fb < 2 ^ 129 ∨ fw = tw) : calculateCrossConnectorReturn fb fw tb tw 0 = .ok 0 := by
  unfold calculateCrossConnectorReturn
  rw [if_neg (by unfold MAX_WEIGHT; simp; omega)]
  by_cases hw : fw = tw
  · rw [if_pos hw, if_neg (by omega), Int.mul_zero, Int.zero_fdiv]
  · rw [if_neg hw, Int.add_zero, power_one h1 (by rw [maxNum_eq]; omega) (by omega)]
    simp only
    rw [if_neg (by decide), Int.sub_self, Int.zero_fdiv]

/-- Selling the whole supply returns the whole balance. -/
theorem C43_sale_all (h1 : 0 < s) (h2 : 0 < b) (hw : 1 ≤ w ∧ w ≤ 1000000) : calculateSaleReturn s b w s = .ok b := by
  rw [sale_valid h1 h2 hw (by omega), if_neg (by omega), if_pos rfl]

/-- At weight 100% a purchase returns `⌊supply · deposit / balance⌋` (for a deposit of any sign). -/
theorem C43_purchase_full (h1 : 0 < s) (h2 : 0 < b) :
    ∃ r, calculatePurchaseReturn s b 1000000 d = .ok r ∧ r * b ≤ s * d ∧ s * d < (r + 1) * b := by
  refine ⟨s * d / b, ?_, Int.ediv_mul_le _ (by omega), Int.lt_ediv_add_one_mul_self _ h2⟩
  rw [purchase_valid h1 h2 ⟨by omega, by omega⟩]
  by_cases h : d = 0
  · rw [if_pos h, h, Int.mul_zero, Int.zero_ediv]
  · rw [if_neg h, if_pos rfl]

/-- At weight 100% a sale returns `⌊balance · sold / supply⌋`. -/
theorem C43_sale_full (h1 : 0 < s) (h2 : 0 < b) (hd : d ≤ s) :
    ∃ r, calculateSaleReturn s b 1000000 d = .ok r ∧ r * s ≤ b * d ∧ b * d < (r + 1) * s := by
  refine ⟨b * d / s, ?_, Int.ediv_mul_le _ (by omega), Int.lt_ediv_add_one_mul_self _ h1⟩
  rw [sale_valid h1 h2 ⟨by omega, by omega⟩ hd]
  by_cases h : d = 0
  · rw [if_pos h, h, Int.mul_zero, Int.zero_ediv]
  rw [if_neg h]
  by_cases h : d = s
  · rw [if_pos h, h, Int.mul_ediv_cancel _ (by omega)]
  · rw [if_neg h, if_pos rfl]

/-- At equal weights a cross-connector conversion returns `⌊toBalance · amount / (fromBalance + amount)⌋`. -/
theorem C43_cross_equal (h1 : 0 < fb) (h2 : 0 < tb) (hw : 1 ≤ w ∧ w ≤ 1000000) (ha : 0 ≤ a) :
    ∃ r, calculateCrossConnectorReturn fb w tb w a = .ok r ∧ r * (fb + a) ≤ tb * a ∧ tb * a < (r + 1) * (fb + a) := by
  refine ⟨tb * a / (fb + a), ?_, Int.ediv_mul_le _ (by omega), Int.lt_ediv_add_one_mul_self _ (by omega)⟩
  rw [cross_valid h1 hw h2 hw, if_pos rfl, if_neg (by omega), Int.fdiv_eq_ediv_of_nonneg _ (by omega)]

example : calculatePurchaseReturn 7000 300 1000000 100 = .ok 2333 := by decide +kernel
example : calculateSaleReturn 7000 300 1000000 100 = .ok 4 := by decide +kernel
example : calculateCrossConnectorReturn 5000 250000 9000 250000 700 = .ok 1105 := by decide +kernel
set_option maxRecDepth 100000 in
example : calculateCrossConnectorReturn 5000 250000 9000 260000 0 = .ok 0 := by decide +kernel

/-! ### C44: results stay in range -/

/-- A purchase with a non-negative deposit returns a non-negative amount. -/
theorem C44_purchase (hd : 0 ≤ d) (h : calculatePurchaseReturn s b w d = .ok r) : 0 ≤ r := by
  by_cases hv : 0 < s ∧ 0 < b ∧ ValidWeight w
  · obtain ⟨h1, h2, h3⟩ := hv
    rw [purchase_valid h1 h2 h3] at h
    split at h
    · cases h; omega
    split at h
    · cases h; exact Int.ediv_nonneg (Int.mul_nonneg (by omega) hd) (by omega)
    split at h; · cases h
    have hx := exponent_nonneg (bn := d + b) (bd := b) (en := w) (ed := 1000000) (by omega) (by omega)
      (by have := h3.1; omega) (by omega)
    simp only at h
    generalize baseLog ((d + b) * FIXED_1 / b) * w / 1000000 = x at hx h
    have h4 := expPart_ge hx
    injection h with h
    rw [Int.shiftRight_eq_div_pow] at h
    have h5 : s ≤ s * (expPart x).1 / 2 ^ (expPart x).2 := by
      rw [Int.le_ediv_iff_mul_le (by positivity)]
      exact Int.mul_le_mul_of_nonneg_left h4 (by omega)
    simp only [Nat.cast_pow, Nat.cast_ofNat] at h
    omega
  · rw [purchase_invalid hv] at h; cases h

/-- A sale of a non-negative amount returns between nothing and the whole balance; less than the whole balance unless the
whole supply is sold. -/
theorem C44_sale (hd : 0 ≤ d) (h : calculateSaleReturn s b w d = .ok r) : 0 ≤ r ∧ r ≤ b ∧ (r = b → d = s) := by
  by_cases hv : 0 < s ∧ 0 < b ∧ ValidWeight w ∧ d ≤ s
  · obtain ⟨h1, h2, h3, h4⟩ := hv
    rw [sale_valid h1 h2 h3 h4] at h
    split at h
    · cases h; omega
    split at h
    · cases h; omega
    rename_i h5 h6
    split at h
    · cases h
      have h7 : b * d / s < b := by
        rw [Int.ediv_lt_iff_lt_mul h1]; exact Int.mul_lt_mul_of_pos_left (by omega) h2
      have h8 : 0 ≤ b * d / s := Int.ediv_nonneg (Int.mul_nonneg (by omega) hd) (by omega)
      omega
    split at h; · cases h
    have hx := exponent_nonneg (bn := s) (bd := s - d) (en := 1000000) (ed := w) (by omega) (by omega) (by omega)
      (by have := h3.1; omega)
    have := part_range h2 (expPart_ge hx)
    simp only at h
    split at h
    · cases h
    · cases h; omega
  · rw [sale_invalid hv] at h; cases h

/-- A cross-connector conversion of a non-negative amount returns a non-negative amount below the target balance. -/
theorem C44_cross (ha : 0 ≤ a) (h : calculateCrossConnectorReturn fb fw tb tw a = .ok r) : 0 ≤ r ∧ r < tb := by
  by_cases hv : 0 < fb ∧ ValidWeight fw ∧ 0 < tb ∧ ValidWeight tw
  · obtain ⟨h1, h2, h3, h4⟩ := hv
    rw [cross_valid h1 h2 h3 h4] at h
    split at h
    · rw [if_neg (by omega), Int.fdiv_eq_ediv_of_nonneg _ (by omega)] at h
      cases h
      refine ⟨Int.ediv_nonneg (Int.mul_nonneg (by omega) ha) (by omega), ?_⟩
      rw [Int.ediv_lt_iff_lt_mul (by omega)]
      exact Int.mul_lt_mul_of_pos_left (by omega) h3
    split at h; · cases h
    have hx := exponent_nonneg (bn := fb + a) (bd := fb) (en := fw) (ed := tw) (by omega) (by omega)
      (by have := h2.1; omega) (by have := h4.1; omega)
    have := part_range h3 (expPart_ge hx)
    simp only at h
    split at h
    · cases h
    · cases h; exact this
  · rw [cross_invalid hv] at h; cases h

set_option maxRecDepth 100000 in
example : calculatePurchaseReturn 1000000 100000 250000 5000 = .ok 12272 := by decide +kernel
set_option maxRecDepth 100000 in
example : calculateSaleReturn 1000000 100000 250000 999999 = .ok 99999 := by decide +kernel
set_option maxRecDepth 100000 in
example : calculateCrossConnectorReturn 100000 250000 70000 500000 (10 ^ 30) = .ok 69999 := by decide +kernel
-- A negative deposit (which no contract passes on) is not refused, and gives a negative return.
set_option maxRecDepth 100000 in
example : calculatePurchaseReturn 1000000 100000 1000000 (-5) = .ok (-50) := by decide +kernel

/-! ### C48: the integer binary logarithm -/

/-- The routine returns the exact floor of the binary logarithm on the whole 256-bit range. -/
theorem C48_log {n : Nat} (h0 : 1 ≤ n) (h : n < 2 ^ 256) : 2 ^ floorLog2 n ≤ n ∧ n < 2 ^ (floorLog2 n + 1) := by
  rw [floorLog2_eq (by omega) h]
  exact ⟨Nat.pow_log_le_self 2 (by omega), Nat.lt_pow_succ_log_self (by omega) n⟩

example : floorLog2 (2 ^ 200 - 1) = 199 ∧ floorLog2 (2 ^ 200) = 200 ∧ floorLog2 255 = 7 ∧ floorLog2 256 = 8 := by decide +kernel
-- Beyond 256 bits (out of reach of `power`) it is wrong, so the bound in the statement is needed.
example : floorLog2 (2 ^ 256) ≠ 256 := by decide +kernel

/-! ### C49: the precision search -/

/-- The search returns the highest precision in 32..127 whose table entry admits `x`, and 0 if there is none. -/
theorem C49_search (x : Int) :
    (32 ≤ findPosition x ∧ findPosition x ≤ 127 ∧ x ≤ maxExp (findPosition x) ∧
      ∀ q, 32 ≤ q → q ≤ 127 → x ≤ maxExp q → q ≤ findPosition x) ∨
    (findPosition x = 0 ∧ ∀ q, 32 ≤ q → q ≤ 127 → maxExp q < x) := by
  rcases findPosition_spec x with ⟨h1, h2⟩ | ⟨h1, h2, h3, h4⟩
  · exact .inr ⟨h1, fun q hq1 hq2 => Int.lt_of_le_of_lt (maxExp_anti hq1 (Nat.le_refl _) hq2) h2⟩
  · refine .inl ⟨h1, h2, h3, fun q _ hq2 hq3 => ?_⟩
    by_contra hc
    have := h4 q (by omega) hq2
    omega

example : findPosition 0 = 127 ∧ findPosition (maxExp 80) = 80 ∧ findPosition (maxExp 80 + 1) = 79 ∧
    findPosition (maxExp 32 + 1) = 0 := by decide +kernel

/-! ### C50: no intermediate value exceeds 256 bits

`powerR` (Spec/FormulaWidth.lean) is `power` with a record of every integer it computes on the way. -/

/-- The power function, for the arguments the three public functions give it: recording changes nothing, and if the
precision search succeeded (or the exponent is at most 1, as in every purchase) everything on record is a natural number
below `2^256`. -/
theorem C50_power {bn bd en ed res : Int} {p : Nat} (hd : 0 < bd) (hb : bd ≤ bn) (hn : 0 ≤ en) (hn2 : en ≤ 1000000) (he : 1 ≤ ed)
    (h : power bn bd en ed = .ok (res, p)) (hp : 32 ≤ p ∨ en ≤ ed) :
    (powerR bn bd en ed).val = (res, p) ∧ ∀ v ∈ (powerR bn bd en ed).seen, 0 ≤ v ∧ v < 2 ^ 256 := by
  by_cases hm : bn < MAX_NUM
  · rw [power_eq hm (by omega) (by omega)] at h
    injection h with h'
    have h2 := powerR_val hm (show bd ≠ 0 by omega) (show ed ≠ 0 by omega) (en := en)
    rw [power_eq hm (by omega) (by omega), h'] at h2
    injection h2 with h2
    refine ⟨h2.symm, (powerR_narrow hd hb (by rw [maxNum_eq] at hm; exact hm) hn hn2 he ?_).1⟩
    rw [h']; exact hp
  · rw [power_error hm] at h; cases h

/-- The general exponentiation, for every argument its precision table admits. -/
theorem C50_general_exp {x : Int} {p : Nat} (hp : 32 ≤ p) (hp2 : p ≤ 127) (h0 : 0 ≤ x) (h : x * 2 ^ (127 - p) ≤ maxExp p) :
    (generalExpR x p).val = generalExp x p ∧ ∀ v ∈ (generalExpR x p).seen, 0 ≤ v ∧ v < 2 ^ 256 := by
  refine ⟨generalExpR_val x p, (generalExpR_narrow hp hp2 h0 ?_).1⟩
  rw [Int.shiftRight_eq_div_pow, Int.le_ediv_iff_mul_le (by positivity)]
  exact_mod_cast h

/-- The optimal exponentiation, for every argument. -/
theorem C50_optimal_exp (x : Int) :
    (optimalExpR x).val = optimalExp x ∧ ∀ v ∈ (optimalExpR x).seen, 0 ≤ v ∧ v < 2 ^ 256 :=
  ⟨optimalExpR_val x, (optimalExpR_narrow x).1⟩

/-- The optimal logarithm on its domain. -/
theorem C50_optimal_log {x : Int} (h1 : FIXED_1 ≤ x) (h2 : x < OPT_LOG_MAX_VAL) :
    (optimalLogR x).val = optimalLog x ∧ ∀ v ∈ (optimalLogR x).seen, 0 ≤ v ∧ v < 2 ^ 256 :=
  ⟨optimalLogR_val x, (optimalLogR_narrow h1 h2).1⟩

/-- The general logarithm on its domain. -/
theorem C50_general_log {x : Int} (h1 : FIXED_1 ≤ x) (h2 : x < 2 ^ 256) :
    (generalLogR x).val = generalLog x ∧ ∀ v ∈ (generalLogR x).seen, 0 ≤ v ∧ v < 2 ^ 256 :=
  ⟨generalLogR_val x, (generalLogR_narrow h1 h2).1⟩

-- The bound is tight to a fraction of a bit: 255 bits are not enough.
set_option maxRecDepth 100000 in
example : ∃ v ∈ (powerR (2 ^ 129 - 1) 1 1 2).seen, 2 ^ 255 ≤ v := by decide +kernel
-- Where the search finds no precision (it returns 0 and the computation goes on, fixed_map_formula.py:394) the bound fails.
set_option maxRecDepth 100000 in
example : (∃ r, power (2 ^ 100) 1 1000000 1000 = .ok (r, 0)) ∧ ∃ v ∈ (powerR (2 ^ 100) 1 1000000 1000).seen, 2 ^ 256 ≤ v :=
  ⟨⟨(powerR (2 ^ 100) 1 1000000 1000).val.1, by decide +kernel⟩, by decide +kernel⟩

end
end Verif.Formula
