import Verif.Model.Source.Machine
import Verif.Model.Layout
/-!
What the text of the classes declares: the storage objects made by `__init__`, and the attributes, methods and functions their methods use.
-/
set_option autoImplicit false
namespace Verif.Src

/-- A storage object: `VarDB(key, db, type)`, `DictDB(…)`, `ArrayDB(…)`, or `ConnectorDict(db)` (without key and type). -/
structure Slot where
  container : String
  key : String
  type : String
  deriving DecidableEq, Repr

/-- A string in `__init__`: a literal, or a constant of the class (`self._NAME`). -/
def keyText (c : String) : Expr → Option String
  | .str s => some s
  | .attr (.name "self") x => match const c x with
    | some (.str s) => some s
    | _ => none
  | _ => none

/-- The storage objects a statement of `__init__` makes, for an object of class `c`; `sup` are those of `super().__init__(db)`. -/
def initStmt (c : String) (sup : Option (List (String × Slot))) : Stmt → Option (List (String × Slot))
  | .seq a b => initStmt c sup a >>- fun x => initStmt c sup b >>- fun y => some (x ++ y)
  | .expr (.sup m (.cons (.name d) .nil)) => if m = "__init__" ∧ d = "db" then sup else none
  | .assign (.attr (.name s) x) (.fn k (.cons e (.cons (.name d) (.cons (.name t) .nil)))) =>
    if s = "self" ∧ d = "db" then keyText c e >>- fun key => some [(x, ⟨k, key, t⟩)] else none
  | .assign (.attr (.name s) x) (.fn k (.cons (.name d) .nil)) => if s = "self" ∧ d = "db" then some [(x, ⟨k, "", ""⟩)] else none
  | _ => none

/-- The storage objects made by the first `__init__` in a list of classes (`IconScoreBase` and `object` make none). -/
def initIn (c : String) : List String → Option (List (String × Slot))
  | [] => some []
  | here :: rest => match inits.lookup here with
    | none => initIn c rest
    | some d => initStmt c (initIn c rest) d.body

/-- The storage objects of an object of class `c`. -/
def slots (c : String) : Option (List (String × Slot)) := initIn c (mroOf c)

/-- What an expression wants of `self`: `self.x` (`false`) and `self.m(…)` (`true`), and `super().m(…)` and functions by name. -/
inductive Use where
  | attr (x : String)
  | meth (m : String)
  | sup (m : String)
  | fn (f : String)
  deriving DecidableEq, Repr

/-- What an expression uses. -/
def Expr.uses : Expr → List Use
  | .attr (.name s) x => if s = "self" then [.attr x] else []
  | .attr e _ => e.uses
  | .op _ a b => a.uses ++ b.uses
  | .cmp _ a b => a.uses ++ b.uses
  | .chain a _ b _ c => a.uses ++ b.uses ++ c.uses
  | .and_ a b => a.uses ++ b.uses
  | .or_ a b => a.uses ++ b.uses
  | .not_ a => a.uses
  | .cond c a b => c.uses ++ a.uses ++ b.uses
  | .index e i => e.uses ++ i.uses
  | .tuple l => l.uses
  | .list l => l.uses
  | .dict l => l.uses
  | .fn f l => .fn f :: l.uses
  | .meth (.name s) m l => if s = "self" then .meth m :: l.uses else l.uses
  | .meth e _ l => e.uses ++ l.uses
  | .sup m l => .sup m :: l.uses
  | .map_ _ b it => b.uses ++ it.uses
  | .comp _ e _ it c => e.uses ++ it.uses ++ c.uses
  | .cons a l => a.uses ++ l.uses
  | .num _ => []
  | .str _ => []
  | .bytes _ => []
  | .bool _ => []
  | .none => []
  | .fstr => []
  | .name _ => []
  | .nil => []

/-- What a statement uses. -/
def Stmt.uses : Stmt → List Use
  | .expr e => e.uses
  | .pass => []
  | .ret e => e.uses
  | .assign t e => t.uses ++ e.uses
  | .assign2 t t' e => t.uses ++ t'.uses ++ e.uses
  | .aug t _ e => t.uses ++ e.uses
  | .del t => t.uses
  | .ite c a b => c.uses ++ a.uses ++ b.uses
  | .for_ _ e b => e.uses ++ b.uses
  | .while_ c b => c.uses ++ b.uses
  | .try_ b h => b.uses ++ h.uses
  | .alt a b => a.uses ++ b.uses
  | .seq a b => a.uses ++ b.uses

/-- Everything the methods in the text of a class use, with the class whose text it is. -/
def usesOf (here : String) : List Use := ((methods.lookup here).getD []).flatMap fun p => p.2.body.uses

/-- The platform's attributes of every SCORE, `IconScoreBase` (iconservice). -/
def platformAttrs : List String := ["msg", "address", "icx"]

/-- Python's and the platform's functions. -/
def builtins : List String := ["len", "range", "enumerate", "dict", "json_loads", "json_dumps", "str", "isinstance", "ProxyScore", "revert"]

/-- Whether an object of class `c` provides what the text of class `here` uses: an attribute is made by `__init__`, is a constant of the class, is a method, or belongs to
the platform; a method is found in the order of resolution, a method of `super()` behind `here`. -/
def provides (c here : String) : Use → Bool
  | .attr x => ((slots c).getD []).any (fun p => p.1 = x) || (const c x).isSome || (find c x).isSome || platformAttrs.contains x
  | .meth m => (find c m).isSome || m = "create_interface_score"
  | .sup m => (findNext c here m).isSome
  | .fn f => (function f).isSome || builtins.contains f

/-- A code update (platform): `on_update` of the class is run. -/
def onUpdate (cx : Cx) (depth : Nat) (w : World) : Option (PV × World) :=
  find cx.cls "on_update" >>- fun p => invoke cx depth p.1 (some cx.cls) p.2 [] w

end Verif.Src
