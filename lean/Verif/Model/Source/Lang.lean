/-!
The part of Python's syntax that /repo/contracts is written in. `Text.lean` (generated) holds the syntax trees of the contracts, and
`Sem.lean` what they mean.
-/
set_option autoImplicit false
namespace Verif.Src

/-- `+ - * // % ** << >> & |` -/
inductive Op where
  | add | sub | mul | fdiv | mod | pow | shl | shr | band | bor
  deriving DecidableEq, Repr

/-- `== != < <= > >= is, is not, in, not in` -/
inductive Cmp where
  | eq | ne | lt | le | gt | ge | is | isNot | in_ | notIn
  deriving DecidableEq, Repr

/-- Expressions. Argument lists are expressions too (`nil`, `cons`); keys and values of a dict display alternate in its list. `fstr` is a
formatted string (only used in messages), `chain` is `a < b <= c`, `cond` is `a if c else b`, `fn` and `meth` are calls `f(…)` and
`o.m(…)`, `sup` is `super().m(…)`, `map_` is `map(lambda x: body, it)`, `comp` is a list or set comprehension. -/
inductive Expr where
  | num (n : Int)
  | str (s : String)
  | bytes (s : String)
  | bool (b : Bool)
  | none
  | fstr
  | name (x : String)
  | attr (e : Expr) (f : String)
  | op (o : Op) (a b : Expr)
  | cmp (o : Cmp) (a b : Expr)
  | chain (a : Expr) (o : Cmp) (b : Expr) (o' : Cmp) (c : Expr)
  | and_ (a b : Expr)
  | or_ (a b : Expr)
  | not_ (a : Expr)
  | cond (c a b : Expr)
  | index (e i : Expr)
  | tuple (l : Expr)
  | list (l : Expr)
  | dict (l : Expr)
  | fn (f : String) (l : Expr)
  | meth (o : Expr) (m : String) (l : Expr)
  | sup (m : String) (l : Expr)
  | map_ (x : String) (body it : Expr)
  | comp (set : Bool) (elt : Expr) (xs : List String) (it c : Expr)
  | nil
  | cons (a l : Expr)
  deriving DecidableEq, Repr

/-- An argument list. -/
syntax "⟪" term,* "⟫" : term
macro_rules
  | `(⟪⟫) => `(Expr.nil)
  | `(⟪$a⟫) => `(Expr.cons $a Expr.nil)
  | `(⟪$a, $b,*⟫) => `(Expr.cons $a ⟪$b,*⟫)

/-- Statements. `assign2` is `t = t' = e`, `aug` is `t += e` and the like, `alt` joins the handlers of a `try`. -/
inductive Stmt where
  | expr (e : Expr)
  | pass
  | ret (e : Expr)
  | assign (t e : Expr)
  | assign2 (t t' e : Expr)
  | aug (t : Expr) (o : Op) (e : Expr)
  | del (t : Expr)
  | ite (c : Expr) (a b : Stmt)
  | for_ (x : String) (e : Expr) (b : Stmt)
  | while_ (c : Expr) (b : Stmt)
  | try_ (b h : Stmt)
  | alt (a b : Stmt)
  | seq (a b : Stmt)
  deriving DecidableEq, Repr

@[inherit_doc] infixr:60 " ;; " => Stmt.seq

/-- A function or method: parameters with their defaults (without `self`), the type after `->` (or the empty string), the decorators
`@external`, `@payable`, `@eventlog`, and the body. -/
structure Def where
  params : List (String × Option Expr)
  answers : String
  ext : Bool := false
  payable : Bool := false
  event : Bool := false
  body : Stmt
  deriving DecidableEq, Repr

end Verif.Src
