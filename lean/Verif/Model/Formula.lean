import Verif.Model.Base
import Verif.Model.FormulaTables
/-!
Model of `contracts/formula/fixed_map_formula.py`, function by function, over unbounded integers (Python `int`).

Reading conventions:
* Python `a // b` with a positive constant `b` is `a / b` on `Int` (both round down);
  with a variable divisor it is `Int.fdiv` (rounds down for either sign), guarded against `b = 0` (`ZeroDivisionError`).
* Python `a >> n` is `a >>> n` on `Int` (rounds down); `a << n` is `a * 2 ^ n`.
* Python `x & bit != 0` with `bit` a power of two is "the quotient `x // bit` is odd" (two's complement, any sign).
-/
namespace Verif.Formula

/-- Reads `_max_exp_array[i]` for `32 ≤ i ≤ 127`, fixed_map_formula.py:47,80-175. The search never looks elsewhere
(`findLoop` keeps its bounds within 32..127), where Python would find `None`. -/
def maxExp (i : Nat) : Int := maxExpTable.getD (i - 32) 0

/-! ### `_floor_log2`, fixed_map_formula.py:347-368 -/

/-- `while n > 1: n >>= 1; res += 1`, fixed_map_formula.py:357-359, reached with `n < 256`.
The first argument bounds the number of iterations; 8 are enough for `n < 256`, as the source comment says. -/
def smallLog2 : Nat → Nat → Nat → Nat
  | 0, _, res => res
  | k + 1, n, res => if n > 1 then smallLog2 k (n >>> 1) (res + 1) else res

/-- One iteration of `if n >= (ONE << s): n >>= s; res |= s`, fixed_map_formula.py:364-366. State `(n, res)`. -/
def bigLog2Step (st : Nat × Nat) (s : Nat) : Nat × Nat :=
  if st.1 ≥ 1 <<< s then (st.1 >>> s, st.2 ||| s) else st

/-- `_floor_log2`, fixed_map_formula.py:347-368. `s` runs through 128, 64, ..., 1. -/
def floorLog2 (n : Nat) : Nat :=
  if n < 256 then smallLog2 8 n 0
  else ([128, 64, 32, 16, 8, 4, 2, 1].foldl bigLog2Step (n, 0)).2

/-! ### `_find_position_in_max_exp_array`, fixed_map_formula.py:370-394 -/

/-- The `while lo + 1 < hi` loop, fixed_map_formula.py:382-387. The first argument bounds the number of iterations
(`hi - lo` is enough, since every iteration shrinks the interval). -/
def findLoop (x : Int) : Nat → Nat → Nat → Nat × Nat
  | 0, lo, hi => (lo, hi)
  | k + 1, lo, hi =>
    if lo + 1 < hi then
      let mid := (lo + hi) / 2
      if maxExp mid ≥ x then findLoop x k mid hi else findLoop x k lo mid
    else (lo, hi)

/-- `_find_position_in_max_exp_array`, fixed_map_formula.py:370-394. -/
def findPosition (x : Int) : Nat :=
  let r := findLoop x (MAX_PRECISION - MIN_PRECISION) MIN_PRECISION MAX_PRECISION
  if maxExp r.2 ≥ x then r.2
  else if maxExp r.1 ≥ x then r.1
  else 0

/-! ### `_general_exp`, fixed_map_formula.py:396-508 -/

/-- `xi = (xi * x) >> precision; res += xi * c`. State `(xi, res)`. -/
def generalExpStep (x : Int) (precision : Nat) (st : Int × Int) (c : Int) : Int × Int :=
  let xi := (st.1 * x) >>> precision
  (xi, st.2 + xi * c)

/-- `_general_exp`, fixed_map_formula.py:396-508 (the 32 unrolled steps are a fold over the coefficient table). -/
def generalExp (x : Int) (precision : Nat) : Int :=
  (generalExpCoeffs.foldl (generalExpStep x precision) (x, 0)).2 / generalExpDen + x + ONE * 2 ^ precision

/-! ### `_general_log`, fixed_map_formula.py:319-345 -/

/-- The loop `for i in range(MAX_PRECISION, 0, -1)`, fixed_map_formula.py:337-343. The first argument is `i`. -/
def generalLogLoop : Nat → Int → Int → Int
  | 0, _, res => res
  | i + 1, x, res =>
    let x := (x * x) / FIXED_1
    if x ≥ FIXED_2 then generalLogLoop i (x >>> 1) (res + ONE * 2 ^ i)
    else generalLogLoop i x res

/-- `_general_log`, fixed_map_formula.py:319-345. -/
def generalLog (x : Int) : Int :=
  let count : Nat := if x ≥ FIXED_2 then floorLog2 (x / FIXED_1).toNat else 0
  let x' := if x ≥ FIXED_2 then x >>> count else x
  let res : Int := if x ≥ FIXED_2 then count * FIXED_1 else 0
  let res := if x' > FIXED_1 then generalLogLoop MAX_PRECISION x' res else res
  res * LN2_NUMERATOR / LN2_DENOMINATOR

/-! ### `_optimal_log`, fixed_map_formula.py:510-585 -/

/-- `if x >= e: res += v; x = x * FIXED_1 // e`, fixed_map_formula.py:526-557. State `(x, res)`. -/
def optLogHiStep (st : Int × Int) (t : Int × Int) : Int × Int :=
  if st.1 ≥ t.1 then (st.1 * FIXED_1 / t.1, st.2 + t.2) else st

/-- `res += z * (num - y) // den; z = z * w // FIXED_1`, fixed_map_formula.py:561-583. State `(z, res)`.
(After the last term the source does not update `z` any more; `z` is not used afterwards.) -/
def optLogLoStep (y w : Int) (st : Int × Int) (t : Int × Int) : Int × Int :=
  (st.1 * w / FIXED_1, st.2 + st.1 * (t.1 - y) / t.2)

/-- `_optimal_log`, fixed_map_formula.py:510-585. -/
def optimalLog (x : Int) : Int :=
  let h := optLogHi.foldl optLogHiStep (x, 0)
  let y := h.1 - FIXED_1
  let w := y * y / FIXED_1
  (optLogLo.foldl (optLogLoStep y w) (y, h.2)).2

/-! ### `_optimal_exp`, fixed_map_formula.py:587-687 -/

/-- `z = z * y // FIXED_1; res += z * c`, fixed_map_formula.py:605-661. State `(z, res)`. -/
def optExpLoStep (y : Int) (st : Int × Int) (c : Int) : Int × Int :=
  let z := st.1 * y / FIXED_1
  (z, st.2 + z * c)

/-- `if (x & bit) != 0: res = res * num // den`, fixed_map_formula.py:665-685. -/
def optExpHiStep (x : Int) (res : Int) (t : Int × Int × Int) : Int :=
  if x / t.1 % 2 = 1 then res * t.2.1 / t.2.2 else res

/-- `_optimal_exp`, fixed_map_formula.py:587-687. -/
def optimalExp (x : Int) : Int :=
  let y := x % optExpMod
  let res := (optExpCoeffs.foldl (optExpLoStep y) (y, 0)).2 / optExpDen + y + FIXED_1
  optExpHi.foldl (optExpHiStep x) res

/-! ### `_power`, fixed_map_formula.py:280-317 -/

/-- `_power`, fixed_map_formula.py:280-317. Returns `(result, precision)`. -/
def power (baseN baseD expN expD : Int) : Except Err (Int × Nat) :=
  if ¬ baseN < MAX_NUM then .error (.revert "Invalid input")
  else if baseD = 0 ∨ expD = 0 then .error (.python "ZeroDivisionError")
  else
    let base := (baseN * FIXED_1).fdiv baseD
    let baseLog := if base < OPT_LOG_MAX_VAL then optimalLog base else generalLog base
    let baseLogTimesExp := (baseLog * expN).fdiv expD
    if baseLogTimesExp < OPT_EXP_MAX_VAL then
      .ok (optimalExp baseLogTimesExp, MAX_PRECISION)
    else
      let precision := findPosition baseLogTimesExp
      .ok (generalExp (baseLogTimesExp >>> (MAX_PRECISION - precision)) precision, precision)

/-! ### The three public functions -/

/-- `calculate_purchase_return`, fixed_map_formula.py:177-206. -/
def calculatePurchaseReturn (supply connectorBalance connectorWeight depositAmount : Int) : Except Err Int :=
  if ¬ (supply > 0 ∧ connectorBalance > 0 ∧ MAX_WEIGHT ≥ connectorWeight ∧ connectorWeight > 0) then
    .error (.revert "Invalid input")
  else if depositAmount = 0 then .ok 0
  else if connectorWeight = MAX_WEIGHT then .ok ((supply * depositAmount).fdiv connectorBalance)
  else
    match power (depositAmount + connectorBalance) connectorBalance connectorWeight MAX_WEIGHT with
    | .error e => .error e
    | .ok (result, precision) => .ok (((supply * result) >>> precision) - supply)

/-- `calculate_sale_return`, fixed_map_formula.py:208-244. -/
def calculateSaleReturn (supply connectorBalance connectorWeight sellAmount : Int) : Except Err Int :=
  if ¬ (supply > 0 ∧ connectorBalance > 0 ∧ (MAX_WEIGHT ≥ connectorWeight ∧ connectorWeight > 0) ∧ sellAmount ≤ supply) then
    .error (.revert "Invalid input")
  else if sellAmount = 0 then .ok 0
  else if sellAmount = supply then .ok connectorBalance
  else if connectorWeight = MAX_WEIGHT then .ok ((connectorBalance * sellAmount).fdiv supply)
  else
    match power supply (supply - sellAmount) MAX_WEIGHT connectorWeight with
    | .error e => .error e
    | .ok (result, precision) =>
      if result = 0 then .error (.python "ZeroDivisionError")
      else .ok ((connectorBalance * result - connectorBalance * 2 ^ precision).fdiv result)

/-- `calculate_cross_connector_return`, fixed_map_formula.py:246-278. -/
def calculateCrossConnectorReturn (fromBalance fromWeight toBalance toWeight amount : Int) : Except Err Int :=
  if ¬ (fromBalance > 0 ∧ (MAX_WEIGHT ≥ fromWeight ∧ fromWeight > 0) ∧ toBalance > 0 ∧
      (MAX_WEIGHT ≥ toWeight ∧ toWeight > 0)) then
    .error (.revert "Invalid input")
  else if fromWeight = toWeight then
    if fromBalance + amount = 0 then .error (.python "ZeroDivisionError")
    else .ok ((toBalance * amount).fdiv (fromBalance + amount))
  else
    match power (fromBalance + amount) fromBalance fromWeight toWeight with
    | .error e => .error e
    | .ok (result, precision) =>
      if result = 0 then .error (.python "ZeroDivisionError")
      else .ok ((toBalance * result - toBalance * 2 ^ precision).fdiv result)

end Verif.Formula
