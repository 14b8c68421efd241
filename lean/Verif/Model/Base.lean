/-!
Failures. Python exceptions are values of `Err`; a function that may raise returns `Except Err`.
-/
namespace Verif

/-- Why a call fails. In `/repo` a failure is `revert(msg)` (contracts/utility/utils.py:33-41 and direct calls), a Python
exception (`ZeroDivisionError`, a bad argument), or an exception of the ICON platform (unknown contract or method,
not payable, out of ICX balance, out of steps / call depth). All of them abort the transaction; the distinction is only
documentation. -/
inductive Err where
  | revert (msg : String)
  | python (what : String)
  | platform (what : String)
  deriving DecidableEq, Repr

/-- `Except Err` with decidable equality of results, for examples. -/
instance {α} [DecidableEq α] : DecidableEq (Except Err α) := fun a b =>
  match a, b with
  | .ok x, .ok y => if h : x = y then isTrue (by rw [h]) else isFalse (by intro h'; cases h'; exact h rfl)
  | .error x, .error y => if h : x = y then isTrue (by rw [h]) else isFalse (by intro h'; cases h'; exact h rfl)
  | .ok _, .error _ => isFalse (by intro h; cases h)
  | .error _, .ok _ => isFalse (by intro h; cases h)

end Verif
