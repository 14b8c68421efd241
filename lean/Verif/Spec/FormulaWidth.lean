import Verif.Model.Formula
/-!
The functions of `fixed_map_formula.py` once more, written so that every integer they compute on the way is recorded.
Used only to state how wide the intermediate values get (C50). That these recording versions compute what the model
computes is proved (`Proofs/FormulaWidth.lean`) and part of the statement of C50.
-/
namespace Verif.Formula

/-- A computed value with the list of all integers computed on the way. -/
structure Recorded (α : Type) where
  val : α
  seen : List Int

instance : Monad Recorded where
  pure a := ⟨a, []⟩
  bind x f := ⟨(f x.val).val, x.seen ++ (f x.val).seen⟩

/-- Compute an integer, and put it on record. -/
def comp (x : Int) : Recorded Int := ⟨x, [x]⟩

/-- `_general_exp`, fixed_map_formula.py:396-508. -/
def generalExpR (x : Int) (precision : Nat) : Recorded Int := do
  let (_, res) ← generalExpCoeffs.foldlM (init := (x, (0 : Int))) fun (xi, res) c => do
    let xi ← comp (xi * x)
    let xi ← comp (xi >>> precision)
    let t ← comp (xi * c)
    let res ← comp (res + t)
    pure (xi, res)
  let res ← comp (res / generalExpDen)
  let res ← comp (res + x)
  let one ← comp (ONE * 2 ^ precision)
  comp (res + one)

/-- The loop of `_general_log`, fixed_map_formula.py:337-343. -/
def generalLogLoopR : Nat → Int → Int → Recorded Int
  | 0, _, res => pure res
  | i + 1, x, res => do
    let x ← comp (x * x)
    let x ← comp (x / FIXED_1)
    if x ≥ FIXED_2 then
      let x ← comp (x >>> 1)
      let bit ← comp (ONE * 2 ^ i)
      let res ← comp (res + bit)
      generalLogLoopR i x res
    else generalLogLoopR i x res

/-- The integer part of `_general_log`, fixed_map_formula.py:327-333. -/
def generalLogHeadR (x : Int) : Recorded (Int × Int) :=
  if x ≥ FIXED_2 then do
    let q ← comp (x / FIXED_1)
    let count ← comp (floorLog2 q.toNat)
    let x ← comp (x >>> count.toNat)
    let res ← comp (count * FIXED_1)
    pure (x, res)
  else pure (x, 0)

/-- The fraction part of `_general_log`, fixed_map_formula.py:335-343. -/
def generalLogTailR (x res : Int) : Recorded Int := if x > FIXED_1 then generalLogLoopR MAX_PRECISION x res else pure res

/-- `_general_log`, fixed_map_formula.py:319-345. -/
def generalLogR (x : Int) : Recorded Int := do
  let (x, res) ← generalLogHeadR x
  let res ← generalLogTailR x res
  let res ← comp (res * LN2_NUMERATOR)
  comp (res / LN2_DENOMINATOR)

/-- `_optimal_log`, fixed_map_formula.py:510-585. -/
def optimalLogR (x : Int) : Recorded Int := do
  let (x, res) ← optLogHi.foldlM (init := (x, (0 : Int))) fun (x, res) (e, v) => do
    if x ≥ e then
      let res ← comp (res + v)
      let x ← comp (x * FIXED_1)
      let x ← comp (x / e)
      pure (x, res)
    else pure (x, res)
  let y ← comp (x - FIXED_1)
  let w ← comp (y * y)
  let w ← comp (w / FIXED_1)
  let (_, res) ← optLogLo.foldlM (init := (y, res)) fun (z, res) (num, den) => do
    let t ← comp (num - y)
    let t ← comp (z * t)
    let t ← comp (t / den)
    let res ← comp (res + t)
    let z ← comp (z * w)
    let z ← comp (z / FIXED_1)
    pure (z, res)
  pure res

/-- `_optimal_exp`, fixed_map_formula.py:587-687. -/
def optimalExpR (x : Int) : Recorded Int := do
  let y ← comp (x % optExpMod)
  let (_, res) ← optExpCoeffs.foldlM (init := (y, (0 : Int))) fun (z, res) c => do
    let z ← comp (z * y)
    let z ← comp (z / FIXED_1)
    let t ← comp (z * c)
    let res ← comp (res + t)
    pure (z, res)
  let res ← comp (res / optExpDen)
  let res ← comp (res + y)
  let res ← comp (res + FIXED_1)
  optExpHi.foldlM (init := res) fun res (bit, num, den) => do
    if x / bit % 2 = 1 then
      let t ← comp (res * num)
      comp (t / den)
    else pure res

/-- `if base < _OPT_LOG_MAX_VAL: _optimal_log(base) else: _general_log(base)`, fixed_map_formula.py:305-308. -/
def logR (base : Int) : Recorded Int := if base < OPT_LOG_MAX_VAL then optimalLogR base else generalLogR base

/-- `_power`, fixed_map_formula.py:280-317, for a base within range and divisors other than 0. -/
def powerR (baseN baseD expN expD : Int) : Recorded (Int × Nat) := do
  let base ← comp (baseN * FIXED_1)
  let base ← comp (base.fdiv baseD)
  let log ← logR base
  let x ← comp (log * expN)
  let x ← comp (x.fdiv expD)
  if x < OPT_EXP_MAX_VAL then
    let r ← optimalExpR x
    pure (r, MAX_PRECISION)
  else
    let precision := findPosition x
    let x ← comp (x >>> (MAX_PRECISION - precision))
    let r ← generalExpR x precision
    pure (r, precision)

end Verif.Formula
