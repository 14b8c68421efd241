import Verif.Proofs.Source.Run
/-!
The functions of contracts/utility/utils.py.
-/
set_option autoImplicit false
namespace Verif.Src
attribute [local irreducible] glob find findNext function const mroOf ifaceHas fields cfields Verif.ZERO
open Verif

variable (cx : Cx) {n : Nat} (w : World)

@[py] theorem inv_require (h : 1 ≤ n) (b : Bool) (m : PV) :
    invoke cx n "" none f_require [.bool b, m] w = if b = true then some (.none, w) else none := by
  py_start f_require

@[py] theorem inv_positive (h : 2 ≤ n) (a : Int) :
    invoke cx n "" none f_require_positive_value [.int a] w = if a > 0 then some (.none, w) else none := by
  py_start f_require_positive_value

@[py] theorem inv_isValid (h : 1 ≤ n) (a : Addr) :
    invoke cx n "" none f_is_valid_address [.addr a] w = some (.bool (decide (a ≠ ZERO)), w) := by
  py_start f_is_valid_address

@[py] theorem inv_isValid_none (h : 1 ≤ n) :
    invoke cx n "" none f_is_valid_address [.none] w = some (.bool false, w) := by
  py_start f_is_valid_address

@[py] theorem inv_valid (h : 2 ≤ n) (a : Addr) :
    invoke cx n "" none f_require_valid_address [.addr a] w = if a ≠ ZERO then some (.none, w) else none := by
  py_start f_require_valid_address

@[py] theorem inv_valid_none (h : 2 ≤ n) :
    invoke cx n "" none f_require_valid_address [.none] w = none := by
  py_start f_require_valid_address

@[py] theorem inv_notThis (h : 2 ≤ n) (a b : Addr) :
    invoke cx n "" none f_require_not_this [.addr a, .addr b] w = if a ≠ b then some (.none, w) else none := by
  py_start f_require_not_this

@[py] theorem inv_safeSub (h : 2 ≤ n) (a b : Int) :
    invoke cx n "" none f_safe_sub [.int a, .int b] w = if a < b then none else some (.int (a - b), w) := by
  py_start f_safe_sub

end Verif.Src
