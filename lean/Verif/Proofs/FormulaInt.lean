import Verif.Model.Formula
import Mathlib.Data.Nat.Log
import Mathlib.Tactic.Linarith
import Mathlib.Tactic.Ring
import Mathlib.Tactic.NormNum
import Mathlib.Tactic.Positivity
/-!
Integer facts about the conversion formula.
-/
namespace Verif.Formula

/-! ### `floorLog2` -/

theorem smallLog2_eq : ∀ (k n res : Nat), n < 2 ^ k → smallLog2 k n res = res + Nat.log 2 n
  | 0, n, res, h => by
    have : n = 0 := by simpa using h
    subst this; simp [smallLog2]
  | k + 1, n, res, h => by
    unfold smallLog2
    split
    · rename_i hn
      rw [smallLog2_eq k _ _ (by rw [Nat.shiftRight_eq_div_pow]; omega), Nat.shiftRight_eq_div_pow,
        Nat.log_of_one_lt_of_le (b := 2) (n := n) (by omega) (by omega)]
      simp; omega
    · rename_i hn
      rw [Nat.log_of_lt (by omega)]; rfl

theorem or_eq_add {res k : Nat} (h : 2 ^ (k + 1) ∣ res) : res ||| 2 ^ k = res + 2 ^ k := by
  obtain ⟨c, rfl⟩ := h
  exact (Nat.two_pow_add_eq_or_of_lt (Nat.pow_lt_pow_right (by omega) (by omega)) c).symm

/-- The shift widths `2^k, ..., 2, 1`. -/
def widths : Nat → List Nat
  | 0 => [1]
  | k + 1 => 2 ^ (k + 1) :: widths k

theorem log_shift {n s : Nat} (h : 2 ^ s ≤ n) : Nat.log 2 n = s + Nat.log 2 (n >>> s) := by
  rw [Nat.shiftRight_eq_div_pow]
  have hd : n / 2 ^ s ≠ 0 := by
    have := Nat.div_le_div_right (c := 2 ^ s) h
    rw [Nat.div_self (by positivity)] at this
    omega
  refine Nat.log_eq_of_pow_le_of_lt_pow ?_ ?_
  · have h1 := Nat.pow_log_le_self 2 hd
    rw [Nat.pow_add, Nat.mul_comm]
    exact (Nat.mul_le_mul_right _ h1).trans (Nat.div_mul_le_self n _)
  · have h1 := Nat.lt_pow_succ_log_self (b := 2) (by omega) (n / 2 ^ s)
    have h2 : n < 2 ^ s * (n / 2 ^ s + 1) := Nat.lt_mul_div_succ n (by positivity)
    calc n < 2 ^ s * (n / 2 ^ s + 1) := h2
      _ ≤ 2 ^ s * 2 ^ (Nat.log 2 (n / 2 ^ s) + 1) := Nat.mul_le_mul_left _ h1
      _ = 2 ^ (s + Nat.log 2 (n / 2 ^ s) + 1) := by rw [← Nat.pow_add]; rfl

theorem big_eq : ∀ (k n res : Nat), n ≠ 0 → n < 2 ^ 2 ^ (k + 1) → 2 ^ (k + 1) ∣ res →
    ((widths k).foldl bigLog2Step (n, res)).2 = res + Nat.log 2 n
  | 0, n, res, h0, h, hd => by
    have h : n < 4 := by simpa using h
    simp only [widths, List.foldl_cons, List.foldl_nil, bigLog2Step]
    have ho := or_eq_add (k := 0) hd
    simp only [pow_zero] at ho
    split
    · rename_i hn
      have hn : 2 ≤ n := by simpa [Nat.shiftLeft_eq] using hn
      rw [ho, log_shift (s := 1) (by simpa using hn)]
      have : n >>> 1 = 1 := by rw [Nat.shiftRight_eq_div_pow]; omega
      rw [this]; simp
    · rename_i hn
      have hn : n < 2 := by simpa [Nat.shiftLeft_eq] using hn
      rw [Nat.log_of_lt hn]; rfl
  | k + 1, n, res, h0, h, hd => by
    simp only [widths, List.foldl_cons, bigLog2Step]
    have ho := or_eq_add (k := k + 1) hd
    split
    · rename_i hn
      have hn : 2 ^ 2 ^ (k + 1) ≤ n := by simpa [Nat.shiftLeft_eq] using hn
      rw [ho, big_eq k _ _ ?_ ?_ ?_, log_shift hn, Nat.add_assoc]
      · rw [Nat.shiftRight_eq_div_pow]
        have := Nat.div_le_div_right (c := 2 ^ 2 ^ (k + 1)) hn
        rw [Nat.div_self (by positivity)] at this
        omega
      · rw [Nat.shiftRight_eq_div_pow]
        refine Nat.div_lt_of_lt_mul ?_
        rw [← Nat.pow_add, ← Nat.two_mul, ← Nat.pow_succ']
        exact h
      · exact Nat.dvd_add ((Nat.pow_dvd_pow 2 (by omega)).trans hd) (Nat.dvd_refl _)
    · rename_i hn
      have hn : n < 2 ^ 2 ^ (k + 1) := by simpa [Nat.shiftLeft_eq] using hn
      exact big_eq k n res h0 hn ((Nat.pow_dvd_pow 2 (by omega)).trans hd)

theorem floorLog2_eq {n : Nat} (h0 : n ≠ 0) (h : n < 2 ^ 256) : floorLog2 n = Nat.log 2 n := by
  unfold floorLog2
  split
  · rename_i hn
    rw [smallLog2_eq 8 n 0 (by simpa using hn), Nat.zero_add]
  · have := big_eq 7 n 0 h0 h (Nat.dvd_zero _)
    rw [Nat.zero_add] at this
    exact this

/-! ### `findPosition` -/

theorem maxExp_step : ∀ i < 95, maxExpTable.getD (i + 1) 0 < maxExpTable.getD i 0 := by decide +kernel

theorem maxExp_anti {i j : Nat} (h : i ≤ j) (hi : 32 ≤ i) (hj : j ≤ 127) : maxExp j ≤ maxExp i := by
  induction j, h using Nat.le_induction with
  | base => exact Int.le_refl _
  | succ j hij ih =>
    refine Int.le_trans ?_ (ih (by omega))
    have := maxExp_step (j - 32) (by omega)
    unfold maxExp
    have e : j + 1 - 32 = j - 32 + 1 := by omega
    rw [e]; exact Int.le_of_lt this

theorem findLoop_spec (x : Int) : ∀ (k lo hi : Nat), lo < hi → hi - lo ≤ k + 1 → 32 ≤ lo → hi ≤ 127 →
    (lo = 32 ∨ x ≤ maxExp lo) → (hi = 127 ∨ maxExp hi < x) →
    let r := findLoop x k lo hi
    r.1 + 1 = r.2 ∧ 32 ≤ r.1 ∧ r.2 ≤ 127 ∧ (r.1 = 32 ∨ x ≤ maxExp r.1) ∧ (r.2 = 127 ∨ maxExp r.2 < x)
  | 0, lo, hi, h1, h2, h3, h4, h5, h6 => by
    simp only [findLoop]; exact ⟨by omega, h3, h4, h5, h6⟩
  | k + 1, lo, hi, h1, h2, h3, h4, h5, h6 => by
    simp only [findLoop]
    split
    · split
      · rename_i hx
        exact findLoop_spec x k _ hi (by omega) (by omega) (by omega) h4 (.inr hx) h6
      · rename_i hx
        exact findLoop_spec x k lo _ (by omega) (by omega) h3 (by omega) h5 (.inr (by omega))
    · exact ⟨by omega, h3, h4, h5, h6⟩

theorem findPosition_spec (x : Int) : let p := findPosition x
    (p = 0 ∧ maxExp 32 < x) ∨ (32 ≤ p ∧ p ≤ 127 ∧ x ≤ maxExp p ∧ ∀ q, p < q → q ≤ 127 → maxExp q < x) := by
  have h := findLoop_spec x (MAX_PRECISION - MIN_PRECISION) MIN_PRECISION MAX_PRECISION (by decide) (by decide) (by decide)
    (by decide) (.inl rfl) (.inl rfl)
  unfold findPosition
  simp only at h ⊢
  generalize findLoop x (MAX_PRECISION - MIN_PRECISION) MIN_PRECISION MAX_PRECISION = r at h
  obtain ⟨h1, h2, h3, h4, h5⟩ := h
  split
  · rename_i h6
    right
    have : r.2 = 127 := h5.resolve_right (by omega)
    refine ⟨by omega, h3, h6, fun q hq hq' => by omega⟩
  · split
    · rename_i h6 h7
      right
      refine ⟨h2, by omega, h7, fun q hq hq' => ?_⟩
      exact Int.lt_of_le_of_lt (maxExp_anti (i := r.2) (by omega) (by omega) hq') (by omega)
    · rename_i h6 h7
      left
      refine ⟨rfl, ?_⟩
      have := h4.resolve_right (by omega)
      rw [this] at h7; omega

/-! ### Signs and sizes -/

theorem F_pos : (0 : Int) < FIXED_1 := by decide

theorem shiftRight_nonneg {a : Int} (h : 0 ≤ a) (n : Nat) : 0 ≤ a >>> n := by
  rw [Int.shiftRight_eq_div_pow]; exact Int.ediv_nonneg h (by positivity)

theorem generalExp_fold_nonneg {x : Int} (hx : 0 ≤ x) (p : Nat) : ∀ (l : List Int), (∀ c ∈ l, 0 ≤ c) → ∀ st : Int × Int, 0 ≤ st.1 → 0 ≤ st.2 →
    0 ≤ (l.foldl (generalExpStep x p) st).1 ∧ 0 ≤ (l.foldl (generalExpStep x p) st).2
  | [], _, st, h1, h2 => ⟨h1, h2⟩
  | c :: l, hl, st, h1, h2 => by
    have h3 : 0 ≤ (st.1 * x) >>> p := shiftRight_nonneg (Int.mul_nonneg h1 hx) p
    refine generalExp_fold_nonneg hx p l (fun c h => hl c (List.mem_cons_of_mem _ h)) _ h3 ?_
    exact Int.add_nonneg h2 (Int.mul_nonneg h3 (hl c List.mem_cons_self))

theorem generalExpCoeffs_nonneg : ∀ c ∈ generalExpCoeffs, 0 ≤ c := by decide +kernel
theorem optExpCoeffs_nonneg : ∀ c ∈ optExpCoeffs, 0 ≤ c := by decide +kernel
theorem generalExpDen_pos : 0 < generalExpDen := by decide +kernel
theorem optExpDen_pos : 0 < optExpDen := by decide +kernel

theorem generalExp_ge {x : Int} (hx : 0 ≤ x) (p : Nat) : 2 ^ p ≤ generalExp x p := by
  unfold generalExp
  have h := (generalExp_fold_nonneg hx p _ generalExpCoeffs_nonneg (x, 0) hx (Int.le_refl 0)).2
  have h' := Int.ediv_nonneg h (Int.le_of_lt generalExpDen_pos)
  have e : ONE * 2 ^ p = 2 ^ p := by unfold ONE; ring
  rw [e]; linarith

theorem optExp_fold_nonneg {y : Int} (hy : 0 ≤ y) : ∀ (l : List Int), (∀ c ∈ l, 0 ≤ c) → ∀ st : Int × Int, 0 ≤ st.1 → 0 ≤ st.2 →
    0 ≤ (l.foldl (optExpLoStep y) st).1 ∧ 0 ≤ (l.foldl (optExpLoStep y) st).2
  | [], _, st, h1, h2 => ⟨h1, h2⟩
  | c :: l, hl, st, h1, h2 => by
    have h3 : 0 ≤ st.1 * y / FIXED_1 := Int.ediv_nonneg (Int.mul_nonneg h1 hy) (Int.le_of_lt F_pos)
    refine optExp_fold_nonneg hy l (fun c h => hl c (List.mem_cons_of_mem _ h)) _ h3 ?_
    exact Int.add_nonneg h2 (Int.mul_nonneg h3 (hl c List.mem_cons_self))

theorem optExpHi_ge {x : Int} : ∀ (l : List (Int × Int × Int)), (∀ t ∈ l, 0 < t.2.2 ∧ t.2.2 ≤ t.2.1) → ∀ res : Int, 0 ≤ res →
    res ≤ l.foldl (optExpHiStep x) res
  | [], _, res, _ => Int.le_refl _
  | t :: l, hl, res, h => by
    obtain ⟨h1, h2⟩ := hl t List.mem_cons_self
    have h3 : res ≤ optExpHiStep x res t := by
      unfold optExpHiStep
      split
      · rw [Int.le_ediv_iff_mul_le h1]; exact Int.mul_le_mul_of_nonneg_left h2 h
      · exact Int.le_refl _
    exact Int.le_trans h3 (optExpHi_ge l (fun t h => hl t (List.mem_cons_of_mem _ h)) _ (Int.le_trans h h3))

theorem optExpHi_ok : ∀ t ∈ optExpHi, 0 < t.2.2 ∧ t.2.2 ≤ t.2.1 := by decide +kernel

theorem optimalExp_ge (x : Int) : FIXED_1 ≤ optimalExp x := by
  unfold optimalExp
  have hy : 0 ≤ x % optExpMod := Int.emod_nonneg x (by decide)
  have h := (optExp_fold_nonneg hy _ optExpCoeffs_nonneg (x % optExpMod, 0) hy (Int.le_refl 0)).2
  have h' := Int.ediv_nonneg h (Int.le_of_lt optExpDen_pos)
  have hF := F_pos
  refine Int.le_trans ?_ (optExpHi_ge _ optExpHi_ok _ (by omega))
  omega

/-- The bound of the first phase of `optimalLog`. -/
def hiBound (ts : List (Int × Int)) (b : Int) : Int := ts.foldl (fun b t => max (t.1 - 1) (b * FIXED_1 / t.1)) b

theorem optLogHi_bounds : ∀ (ts : List (Int × Int)), (∀ t ∈ ts, FIXED_1 ≤ t.1 ∧ 0 ≤ t.2) → ∀ (b : Int) (st : Int × Int),
    FIXED_1 ≤ st.1 → st.1 ≤ b → 0 ≤ st.2 →
    FIXED_1 ≤ (ts.foldl optLogHiStep st).1 ∧ (ts.foldl optLogHiStep st).1 ≤ hiBound ts b ∧ 0 ≤ (ts.foldl optLogHiStep st).2
  | [], _, b, st, h1, h2, h3 => ⟨h1, h2, h3⟩
  | t :: ts, ht, b, st, h1, h2, h3 => by
    obtain ⟨h4, h5⟩ := ht t List.mem_cons_self
    have hF := F_pos
    have htp : 0 < t.1 := by omega
    refine optLogHi_bounds ts (fun t h => ht t (List.mem_cons_of_mem _ h)) (max (t.1 - 1) (b * FIXED_1 / t.1)) (optLogHiStep st t) ?_ ?_ ?_
    · unfold optLogHiStep; split
      · rename_i h; simp only
        rw [Int.le_ediv_iff_mul_le htp, Int.mul_comm]; exact Int.mul_le_mul_of_nonneg_right h (Int.le_of_lt hF)
      · exact h1
    · unfold optLogHiStep; split
      · exact Int.le_trans (Int.ediv_le_ediv htp (Int.mul_le_mul_of_nonneg_right h2 (Int.le_of_lt hF))) (Int.le_max_right _ _)
      · rename_i h; exact Int.le_trans (by omega) (Int.le_max_left _ _)
    · unfold optLogHiStep; split
      · simp only; omega
      · exact h3

theorem optLogHi_ok : ∀ t ∈ optLogHi, FIXED_1 ≤ t.1 ∧ 0 ≤ t.2 := by decide +kernel

/-- After the first phase at most this much is left above 1 (about `e^(1/256) - 1`). -/
def YMAX : Int := 665913763959769027586870889608967988

theorem hiBound_eq : hiBound optLogHi (OPT_LOG_MAX_VAL - 1) = FIXED_1 + YMAX := by decide +kernel

theorem optLogHi_final {x : Int} (h1 : FIXED_1 ≤ x) (h2 : x < OPT_LOG_MAX_VAL) :
    let h := optLogHi.foldl optLogHiStep (x, 0)
    0 ≤ h.1 - FIXED_1 ∧ h.1 - FIXED_1 ≤ YMAX ∧ 0 ≤ h.2 := by
  obtain ⟨h3, h4, h5⟩ := optLogHi_bounds _ optLogHi_ok (OPT_LOG_MAX_VAL - 1) (x, 0) h1 (by simp only; omega) (Int.le_refl 0)
  rw [hiBound_eq] at h4
  exact ⟨by omega, by omega, h5⟩

theorem optLogLo_fold_nonneg {y w : Int} (hw : 0 ≤ w) : ∀ (l : List (Int × Int)), (∀ t ∈ l, y ≤ t.1 ∧ 0 < t.2) → ∀ st : Int × Int, 0 ≤ st.1 → 0 ≤ st.2 →
    0 ≤ (l.foldl (optLogLoStep y w) st).2
  | [], _, st, h1, h2 => h2
  | t :: l, hl, st, h1, h2 => by
    obtain ⟨h3, h4⟩ := hl t List.mem_cons_self
    refine optLogLo_fold_nonneg hw l (fun c h => hl c (List.mem_cons_of_mem _ h)) _ ?_ ?_
    · exact Int.ediv_nonneg (Int.mul_nonneg h1 hw) (Int.le_of_lt F_pos)
    · exact Int.add_nonneg h2 (Int.ediv_nonneg (Int.mul_nonneg h1 (by omega)) (Int.le_of_lt h4))

theorem optLogLo_ok : ∀ t ∈ optLogLo, YMAX ≤ t.1 ∧ 0 < t.2 := by decide +kernel

theorem optimalLog_nonneg {x : Int} (h1 : FIXED_1 ≤ x) (h2 : x < OPT_LOG_MAX_VAL) : 0 ≤ optimalLog x := by
  obtain ⟨h3, h4, h5⟩ := optLogHi_final h1 h2
  unfold optimalLog
  refine optLogLo_fold_nonneg (Int.ediv_nonneg (Int.mul_nonneg h3 h3) (Int.le_of_lt F_pos)) _ (fun t ht => ?_) _ h3 h5
  exact ⟨Int.le_trans h4 (optLogLo_ok t ht).1, (optLogLo_ok t ht).2⟩

theorem generalLogLoop_nonneg : ∀ (i : Nat) (x res : Int), 0 ≤ res → 0 ≤ generalLogLoop i x res
  | 0, _, _, h => h
  | i + 1, x, res, h => by
    unfold generalLogLoop
    have h2 : (0 : Int) < ONE * 2 ^ i := by unfold ONE; positivity
    simp only
    split
    · exact generalLogLoop_nonneg i _ _ (by omega)
    · exact generalLogLoop_nonneg i _ _ h

theorem generalLog_nonneg (x : Int) : 0 ≤ generalLog x := by
  unfold generalLog
  have hF := F_pos
  have hD : (0 : Int) ≤ LN2_DENOMINATOR := by decide
  have hN : (0 : Int) ≤ LN2_NUMERATOR := by decide
  refine Int.ediv_nonneg (Int.mul_nonneg ?_ hN) hD
  by_cases hx : x ≥ FIXED_2
  · simp only [if_pos hx]
    have h1 : (0 : Int) ≤ ((floorLog2 (x / FIXED_1).toNat : Nat) : Int) * FIXED_1 :=
      Int.mul_nonneg (Int.natCast_nonneg _) (Int.le_of_lt hF)
    split
    · exact generalLogLoop_nonneg _ _ _ h1
    · exact h1
  · simp only [if_neg hx]
    split
    · exact generalLogLoop_nonneg _ _ _ (Int.le_refl 0)
    · exact Int.le_refl 0

/-! ### `power` -/

/-- The base of a power, as a fixed-point number. -/
theorem base_ge {bn bd : Int} (hd : 0 < bd) (h : bd ≤ bn) : FIXED_1 ≤ (bn * FIXED_1).fdiv bd := by
  rw [Int.fdiv_eq_ediv_of_nonneg _ (Int.le_of_lt hd), Int.le_ediv_iff_mul_le hd, Int.mul_comm]
  exact Int.mul_le_mul_of_nonneg_right h (Int.le_of_lt F_pos)

/-- The logarithm `power` uses. -/
def baseLog (base : Int) : Int := if base < OPT_LOG_MAX_VAL then optimalLog base else generalLog base

theorem baseLog_nonneg {x : Int} (h : FIXED_1 ≤ x) : 0 ≤ baseLog x := by
  unfold baseLog; split
  · exact optimalLog_nonneg h (by assumption)
  · exact generalLog_nonneg x

/-- The exponential `power` uses. -/
def expPart (x : Int) : Int × Nat :=
  if x < OPT_EXP_MAX_VAL then (optimalExp x, MAX_PRECISION)
  else (generalExp (x >>> (MAX_PRECISION - findPosition x)) (findPosition x), findPosition x)

theorem power_eq {bn bd en ed : Int} (h : bn < MAX_NUM) (hd : bd ≠ 0) (he : ed ≠ 0) :
    power bn bd en ed = .ok (expPart ((baseLog ((bn * FIXED_1).fdiv bd) * en).fdiv ed)) := by
  unfold power expPart baseLog
  rw [if_neg (by simpa using h), if_neg (by simp [hd, he])]
  simp only
  generalize (if (bn * FIXED_1).fdiv bd < OPT_LOG_MAX_VAL then optimalLog ((bn * FIXED_1).fdiv bd) else generalLog ((bn * FIXED_1).fdiv bd)) * en = z
  split <;> rfl

theorem power_error {bn bd en ed : Int} (h : ¬ bn < MAX_NUM) : power bn bd en ed = .error (.revert "Invalid input") := by
  unfold power; rw [if_pos h]

theorem expPart_ge {x : Int} (hx : 0 ≤ x) : 2 ^ (expPart x).2 ≤ (expPart x).1 := by
  unfold expPart; split
  · exact optimalExp_ge x
  · exact generalExp_ge (shiftRight_nonneg hx _) _

theorem power_ge {bn bd en ed res : Int} {p : Nat} (hd : 0 < bd) (hb : bd ≤ bn) (hn : 0 ≤ en) (he : 0 < ed)
    (h : power bn bd en ed = .ok (res, p)) : 2 ^ p ≤ res := by
  by_cases hm : bn < MAX_NUM
  · rw [power_eq hm (by omega) (by omega)] at h
    injection h with h
    have hx : 0 ≤ (baseLog ((bn * FIXED_1).fdiv bd) * en).fdiv ed := by
      rw [Int.fdiv_eq_ediv_of_nonneg _ (Int.le_of_lt he)]
      exact Int.ediv_nonneg (Int.mul_nonneg (baseLog_nonneg (base_ge hd hb)) hn) (Int.le_of_lt he)
    have := expPart_ge hx
    rw [h] at this; exact this
  · rw [power_error hm] at h; cases h

theorem power_one {b en ed : Int} (hd : 0 < b) (hm : b < MAX_NUM) (he : ed ≠ 0) : power b b en ed = .ok (2 ^ 127, 127) := by
  rw [power_eq hm (by omega) he]
  have e : (b * FIXED_1).fdiv b = FIXED_1 := Int.mul_fdiv_cancel_left _ (by omega)
  rw [e]
  have e1 : baseLog FIXED_1 = 0 := by decide +kernel
  rw [e1, Int.zero_mul, Int.zero_fdiv]
  have e2 : expPart 0 = (2 ^ 127, 127) := by decide +kernel
  rw [e2]

end Verif.Formula
