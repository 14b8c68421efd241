/-!
Python classes, as far as the SCOREs use them: inheritance (method resolution order), calls of inherited methods, and the decorators by
which the platform knows which methods may be called from outside. The table of the project's classes is in `ClassTable.lean`.
-/
namespace Verif.Py

/-- A call of an inherited method in a method body: `super().m(…)`, or `C.m(self, …)`. -/
inductive Up where
  | next (m : String)
  | of (c m : String)
  deriving DecidableEq, Repr

/-- A method: name, parameters with their types (without `self`), decorators, and the inherited methods its body calls. -/
structure Method where
  name : String
  params : List (String × String)
  ext : Bool := false
  readonly : Bool := false
  payable : Bool := false
  abstract : Bool := false
  interface : Bool := false
  event : Bool := false
  up : List Up := []
  deriving DecidableEq, Repr

/-- A class; `uses` are the interfaces the file (or class) makes with `ProxyScore(…)`, and the interface SCORE of irc_token.py:27-33. -/
structure Class where
  name : String
  bases : List String
  uses : List String := []
  methods : List Method := []
  deriving DecidableEq, Repr

/-- The platform's classes (iconservice). Simplified: of `IconScoreBase`, what the SCOREs rely on. -/
def platform : List Class := [
  { name := "object", bases := [] },
  { name := "ABC", bases := ["object"] },
  { name := "InterfaceScore", bases := ["ABC"] },
  { name := "IconScoreBase", bases := ["ABC"]
    methods := [{ name := "__init__", params := [("db", "IconScoreDatabase")] }, { name := "on_install", params := [] },
      { name := "on_update", params := [] }, { name := "fallback", params := [] }] }]

/-- One step of Python's C3 merge: the first head that is in no tail. -/
def pick (ls : List (List String)) : Option String :=
  (ls.filterMap List.head?).find? fun h => ls.all fun l => !l.tail.contains h

/-- Python's C3 merge. -/
def merge : Nat → List (List String) → Option (List String)
  | 0, _ => none
  | n + 1, ls =>
    let ls := ls.filter (· ≠ [])
    if ls = [] then some []
    else match pick ls with
      | none => none
      | some h => (merge n (ls.map fun l => if l.head? = some h then l.tail else l)).map (h :: ·)

/-- The class of a name. -/
def find (env : List Class) (c : String) : Option Class := env.find? (·.name = c)

/-- Python's method resolution order (`none`: no consistent order). The first number bounds the depth of the hierarchy. -/
def mro (env : List Class) : Nat → String → Option (List String)
  | 0, _ => none
  | n + 1, c => do
    let cl ← find env c
    let ls ← cl.bases.mapM (mro env n)
    let l ← merge 100 (ls ++ [cl.bases])
    return c :: l

/-- The methods of a name in a list of classes, in order. -/
def defs (env : List Class) (l : List String) (m : String) : List (String × Method) :=
  l.filterMap fun c => do
    let cl ← find env c
    let f ← cl.methods.find? (·.name = m)
    return (c, f)

/-- The names in a class and its bases (Python's `dir`). -/
def names (env : List Class) (l : List String) : List String :=
  (l.flatMap fun c => ((find env c).map fun cl => cl.methods.map Method.name).getD []).eraseDups

/-- The classes whose method bodies run, in the order they are entered, if an object of a class with resolution order `l` is sent `m`.
`super()` in class `c` looks `m` up in the classes after `c`. -/
def runs (env : List Class) (l : List String) : Nat → List String → String → List (String × String)
  | 0, _, _ => []
  | n + 1, from_, m => match (defs env from_ m).head? with
    | none => []
    | some (c, f) => (c, m) :: f.up.flatMap fun
      | .next m' => runs env l n ((l.dropWhile (· ≠ c)).tail) m'
      | .of d m' => runs env l n (((mro env 20 d).getD [])) m'

/-- What the platform lets one call on a SCORE of class `c`: the methods with decorator `@external`, as they are found in the order of
resolution. -/
def exports (env : List Class) (c : String) : List Method :=
  let l := (mro env 20 c).getD []
  (names env l).filterMap fun m => do
    let f ← (defs env l m).head?
    if f.2.ext then some f.2 else none

/-- The abstract methods left in a class: it can be instantiated if there are none. -/
def abstracts (env : List Class) (c : String) : List String :=
  let l := (mro env 20 c).getD []
  (names env l).filter fun m => ((defs env l m).head?.map fun f => f.2.abstract).getD false

end Verif.Py
