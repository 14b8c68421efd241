import Mathlib.Data.Nat.Factorial.Basic
import Mathlib.Analysis.SpecialFunctions.Log.Basic
/-!
Model of the scripts that generate the constants of the conversion formula, `contracts/formula/auto_generate`.
All integers these scripts handle are non-negative: `Nat`. An `assert` that fails, an index out of range and a division by
zero are `none`. The text the scripts print around the numbers is not modelled.
-/
set_option autoImplicit false
namespace Verif.Generator

/-! ### constants.py -/

/-- constants.py:2 -/
def MIN_PRECISION : Nat := 32
/-- constants.py:4 -/
def MAX_PRECISION : Nat := 127
/-- constants.py:7 -/
def NUM_OF_COEFFICIENTS : Nat := 34
/-- constants.py:11 -/
def LOG_MAX_HI_TERM_VAL : Nat := 1
/-- constants.py:13 -/
def LOG_NUM_OF_HI_TERMS : Nat := 8
/-- constants.py:16 -/
def EXP_MAX_HI_TERM_VAL : Nat := 4
/-- constants.py:18 -/
def EXP_NUM_OF_HI_TERMS : Nat := 7

/-- `FIXED_1 = (1 << MAX_PRECISION)`, print_function_optimal_log.py:31, print_function_optimal_exp.py:32, print_int_scaling_factors.py:23 -/
def FIXED_1 : Nat := 1 <<< MAX_PRECISION
/-- `FIXED_2 = 2 << MAX_PRECISION`, print_int_scaling_factors.py:24 -/
def FIXED_2 : Nat := 2 <<< MAX_PRECISION
/-- `MAX_NUM = 1 << (256-MAX_PRECISION)`, print_int_scaling_factors.py:25 -/
def MAX_NUM : Nat := 1 <<< (256 - MAX_PRECISION)

/-! ### functions.py -/

/-- `safe_sub`, functions.py:93-95 -/
def safeSub (x y : Nat) : Option Nat := if y ≤ x then some (x - y) else none
/-- `safe_add`, functions.py:98-100 -/
def safeAdd (x y : Nat) : Option Nat := if x + y < 1 <<< 256 then some (x + y) else none
/-- `safe_mul`, functions.py:103-105 -/
def safeMul (x y : Nat) : Option Nat := if x * y < 1 <<< 256 then some (x * y) else none
/-- Python's `x // y`. -/
def quot (x y : Nat) : Option Nat := if y = 0 then none else some (x / y)

/-- `get_coefficients`, functions.py:23-25 -/
def getCoefficients (n : Nat) : List Nat := (List.range (n - 1)).map fun i => (n - 1).factorial / (i + 1).factorial

/-- The loop of `general_exp`, functions.py:59-61. -/
def generalExpLoop (x precision : Nat) : List Nat → Nat → Nat → Option Nat
  | [], _, res => some res
  | c :: cs, xi, res => do
    let p ← safeMul xi x
    let t ← safeMul (p >>> precision) c
    let res ← safeAdd res t
    generalExpLoop x precision cs (p >>> precision) res

/-- `general_exp`, functions.py:56-62 -/
def generalExp (x : Nat) (coefficients : List Nat) (precision : Nat) : Option Nat :=
  match coefficients with
  | [] => none
  | c :: cs => do
    let res ← generalExpLoop x precision cs x 0
    let q ← quot res c
    let s ← safeAdd q x
    safeAdd s (1 <<< precision)

/-- The loop of `binary_search`, functions.py:40-46; `ok` says where the function raises nothing. -/
def binaryLoop (ok : Nat → Bool) (lo hi : Nat) : Nat × Nat :=
  if lo + 1 < hi then
    if ok ((lo + hi) / 2) then binaryLoop ok ((lo + hi) / 2) hi else binaryLoop ok lo ((lo + hi) / 2)
  else (lo, hi)
termination_by hi - lo

/-- `binary_search`, functions.py:36-53 -/
def binarySearch {α : Type} (f : Nat → Option α) : Option Nat :=
  let r := binaryLoop (fun x => (f x).isSome) 0 ((1 <<< 256) - 1)
  if (f r.2).isSome then some r.2 else if (f r.1).isSome then some r.1 else none

/-- `get_max_exp_array`, functions.py:28-29 -/
def getMaxExpArray (coefficients : List Nat) (numOfPrecisions : Nat) : Option (List Nat) :=
  (List.range numOfPrecisions).mapM fun precision => binarySearch fun x => generalExp x coefficients precision

/-- `get_max_val_array`, functions.py:32-33 -/
def getMaxValArray (coefficients maxExpArray : List Nat) : Option (List Nat) :=
  (List.range maxExpArray.length).mapM fun precision => generalExp (maxExpArray.getD precision 0) coefficients precision

/-- The first loop of `optimal_log`, functions.py:67-70, over terms `(val, exp)`. -/
def optimalLogHi (fixed1 : Nat) : List (Nat × Nat) → Nat → Nat → Option (Nat × Nat)
  | [], x, res => some (x, res)
  | t :: ts, x, res =>
    if x ≥ t.2 then do
      let res ← safeAdd res t.1
      let p ← safeMul x fixed1
      let x ← quot p t.2
      optimalLogHi fixed1 ts x res
    else optimalLogHi fixed1 ts x res

/-- The rest of `optimal_log`, functions.py:73-76, over terms `(num, den)`. -/
def optimalLogLo (fixed1 y w : Nat) : List (Nat × Nat) → Nat → Nat → Option Nat
  | [], _, _ => none
  | [t], z, res => do
    let d ← safeSub t.1 y
    let p ← safeMul z d
    let q ← quot p t.2
    safeAdd res q
  | t :: t' :: ts, z, res => do
    let d ← safeSub t.1 y
    let p ← safeMul z d
    let q ← quot p t.2
    let res ← safeAdd res q
    let p ← safeMul z w
    let z ← quot p fixed1
    optimalLogLo fixed1 y w (t' :: ts) z res

/-- `optimal_log`, functions.py:65-77 -/
def optimalLog (x : Nat) (hiTerms loTerms : List (Nat × Nat)) (fixed1 : Nat) : Option Nat := do
  let (x, res) ← optimalLogHi fixed1 hiTerms.tail x 0
  let y ← safeSub x fixed1
  let p ← safeMul y y
  let w ← quot p fixed1
  optimalLogLo fixed1 y w loTerms y res

/-- The first loop of `optimal_exp`, functions.py:83-85. -/
def optimalExpLo (fixed1 y : Nat) : List Nat → Nat → Nat → Option Nat
  | [], _, res => some res
  | v :: vs, z, res => do
    let p ← safeMul z y
    let z ← quot p fixed1
    let t ← safeMul z v
    let res ← safeAdd res t
    optimalExpLo fixed1 y vs z res

/-- The second loop of `optimal_exp`, functions.py:87-89, over terms `(bit, num, den)`. -/
def optimalExpHi (x : Nat) : List (Nat × Nat × Nat) → Nat → Option Nat
  | [], res => some res
  | t :: ts, res =>
    if x &&& t.1 ≠ 0 then do
      let p ← safeMul res t.2.1
      let res ← quot p t.2.2
      optimalExpHi x ts res
    else optimalExpHi x ts res

/-- `optimal_exp`, functions.py:80-90; of the terms `(val, ind)` of the series only `val` is used. -/
def optimalExp (x : Nat) (hiTerms : List (Nat × Nat × Nat)) (loTerms : List Nat) (fixed1 : Nat) : Option Nat :=
  match hiTerms.head?, loTerms with
  | some h, v :: vs =>
    if h.1 = 0 then none else do
      let y := x % h.1
      let res ← optimalExpLo fixed1 y vs y 0
      let q ← quot res v
      let s ← safeAdd q y
      let s ← safeAdd s fixed1
      optimalExpHi x hiTerms.dropLast s
  | _, _ => none

/-! ### print_function_constructor.py -/

/-- `max_exp_array_shl`, print_function_constructor.py:29-30 -/
def maxExpArrayShl (maxExpArray : List Nat) : List Nat :=
  (List.range maxExpArray.length).map fun precision => ((maxExpArray.getD precision 0 + 1) <<< (MAX_PRECISION - precision)) - 1

/-! ### print_max_exp_per_precision.py -/

/-- The loop of `get_max_exp`, print_max_exp_per_precision.py:36-38, `k` rounds. -/
def getMaxExpLoop (coefficients : List Nat) (precision factor : Nat) : Nat → Nat → Option Nat
  | 0, maxExp => some maxExp
  | k + 1, maxExp => do
    let p ← safeMul maxExp factor
    let _ ← generalExp (p >>> MAX_PRECISION) coefficients precision
    getMaxExpLoop coefficients precision factor k (p >>> MAX_PRECISION)

/-- `get_max_exp`, print_max_exp_per_precision.py:34-39 -/
def getMaxExp (coefficients maxExpArray : List Nat) (precision factor : Nat) : Option Nat :=
  getMaxExpLoop coefficients precision factor (precision - MIN_PRECISION) (maxExpArray.getD MIN_PRECISION 0)

/-- `assert_factor`, print_max_exp_per_precision.py:42-44 -/
def assertFactor (coefficients maxExpArray : List Nat) (factor : Nat) : Option Unit :=
  (List.range (MAX_PRECISION + 1 - MIN_PRECISION)).forM fun k => do
    let _ ← getMaxExp coefficients maxExpArray (MIN_PRECISION + k) factor

/-- `growthFactor`, print_max_exp_per_precision.py:49 -/
def growthFactor (coefficients maxExpArray : List Nat) : Option Nat := binarySearch (assertFactor coefficients maxExpArray)

/-! ### The series of print_function_optimal_log.py and print_function_optimal_exp.py -/

/-- The loop that lengthens the series of the logarithm, print_function_optimal_log.py:52-61. The first argument bounds the
number of rounds; `none` if they do not suffice, or if an assertion fails. -/
def logLoLoop (maxVal : Nat) (hiTerms : List (Nat × Nat)) : Nat → List (Nat × Nat) → Nat → Option (List (Nat × Nat))
  | 0, _, _ => none
  | k + 1, loTerms, res => do
    let n := loTerms.length
    let val := FIXED_1 * (2 * n + 2)
    let next := loTerms ++ [(val / (2 * n + 1), val)]
    let resNext ← optimalLog maxVal hiTerms next FIXED_1
    if res < resNext then logLoLoop maxVal hiTerms k next resNext else some loTerms

/-- The series of the logarithm, print_function_optimal_log.py:49-61. -/
def logLoTerms (rounds : Nat) (hiTerms : List (Nat × Nat)) : Option (List (Nat × Nat)) := do
  let h ← hiTerms.head?
  let first := [(FIXED_1 * 2, FIXED_1 * 2)]
  let res ← optimalLog (h.2 - 1) hiTerms first FIXED_1
  logLoLoop (h.2 - 1) hiTerms rounds first res

/-- The loop that lengthens the series of the exponential, print_function_optimal_exp.py:56-65. -/
def expLoLoop (maxVal : Nat) (hiTerms : List (Nat × Nat × Nat)) : Nat → List Nat → Nat → Option (List Nat)
  | 0, _, _ => none
  | k + 1, loTerms, res => do
    let n := loTerms.length + 1
    let next := (List.range n).map fun i => n.factorial / (i + 1).factorial
    let resNext ← optimalExp maxVal hiTerms next FIXED_1
    if res < resNext then expLoLoop maxVal hiTerms k next resNext else some loTerms

/-- The series of the exponential, print_function_optimal_exp.py:53-65. -/
def expLoTerms (rounds : Nat) (hiTerms : List (Nat × Nat × Nat)) : Option (List Nat) := do
  let h ← hiTerms.getLast?
  let res ← optimalExp (h.1 - 1) hiTerms [1] FIXED_1
  expLoLoop (h.1 - 1) hiTerms rounds [1] res

/-! ### What the scripts compute with Python's `Decimal` -/

/-- A number that fits in 100 significant digits. -/
def Fits (x : ℝ) : Prop := ∃ m k : ℤ, |m| < 10 ^ 100 ∧ x = m * 10 ^ k

/-- What an operation whose exact result is `x` may yield with `getcontext().prec = 100` (print_function_optimal_log.py:30,
print_function_optimal_exp.py:31, print_ln2_scaling_factors.py:28): `x` itself if it fits in 100 digits, else something that
differs from it by less than a unit in the hundredth digit. (Which way the context rounds is left open.) -/
def Rounded (x y : ℝ) : Prop := |y - x| ≤ |x| / 10 ^ 99 ∧ (Fits x → y = x)

/-- A term `(val, exp)` for `n`, print_function_optimal_log.py:42-46. -/
def LogHiTerm (n : Nat) (t : Nat × Nat) : Prop := ∃ cur v e p : ℝ,
  Rounded (LOG_MAX_HI_TERM_VAL / 2 ^ n) cur ∧
  Rounded (FIXED_1 * cur) v ∧ t.1 = ⌊v⌋₊ ∧
  Rounded (Real.exp cur) e ∧ Rounded (FIXED_1 * e) p ∧ t.2 = ⌊p⌋₊

/-- The terms of the logarithm, print_function_optimal_log.py:42-46. -/
def LogHiTerms (ts : List (Nat × Nat)) : Prop :=
  ts.length = LOG_NUM_OF_HI_TERMS + 1 ∧ ∀ (n : Nat) (h : n < ts.length), LogHiTerm n ts[n]

/-- The rounds `n`, `n+1`, …, of the loop that computes the terms `(bit, num, den)` of the exponential,
print_function_optimal_exp.py:44-50, entered with the given `top`. -/
inductive ExpHiRounds : Nat → Nat → List (Nat × Nat × Nat) → Prop
  | done (top : Nat) : ExpHiRounds (EXP_NUM_OF_HI_TERMS + 1) top []
  | round {n top num den : Nat} {rest : List (Nat × Nat × Nat)} {cur p q r : ℝ} : n < EXP_NUM_OF_HI_TERMS + 1 →
      Rounded (Real.exp (2 ^ ((n : ℤ) + EXP_MAX_HI_TERM_VAL - EXP_NUM_OF_HI_TERMS))) cur →
      Rounded (cur * top) p → Rounded (((1 <<< 256 - 1 : Nat) : ℝ) / p) q → den = ⌊q⌋₊ →
      Rounded (den * cur) r → num = ⌊r⌋₊ →
      ExpHiRounds (n + 1) (top * num / den) rest →
      ExpHiRounds n top (((FIXED_1 <<< (n + EXP_MAX_HI_TERM_VAL)) >>> EXP_NUM_OF_HI_TERMS, num, den) :: rest)

/-- The terms of the exponential, print_function_optimal_exp.py:43-50. -/
def ExpHiTerms (ts : List (Nat × Nat × Nat)) : Prop := ∃ cur p : ℝ,
  Rounded (Real.exp (2 ^ ((0 : ℤ) + EXP_MAX_HI_TERM_VAL - EXP_NUM_OF_HI_TERMS))) cur ∧
  Rounded (cur * FIXED_1) p ∧ ExpHiRounds 0 (⌊p⌋₊ - 1) ts

/-- `LN2_NUMERATOR`, `LN2_DENOMINATOR`, print_ln2_scaling_factors.py:31-48. -/
def Ln2Factors (num den : Nat) : Prop := ∃ a b c d l q : ℝ,
  Rounded (Real.log ((1 <<< (256 - MAX_PRECISION) - 1 : Nat) : ℝ)) a ∧ Rounded (Real.log 2) b ∧ Rounded (a / b) c ∧
  Rounded (c * 2 ^ MAX_PRECISION) d ∧ num = (1 <<< 256 - 1) / ⌊d⌋₊ ∧
  Rounded (Real.log 2) l ∧ Rounded (num / l) q ∧ den = ⌈q⌉₊

end Verif.Generator
