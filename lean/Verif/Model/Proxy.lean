import Verif.Model.World
/-!
`contracts/utility/proxy_score.py`: the metaclass `ProxyScore`, which makes an interface SCORE of an abstract class, and the platform's decorator
`interface` as far as it matters for that.

Python's objects: functions and classes have an identity (a number). Attributes of classes that are no functions do not concern the code
(proxy_score.py:49-51 skips them) and are left out. An exception leaves what was done before it.
-/
namespace Verif.Proxy

/-- The identity of a function object. -/
scoped notation "FnId" => Nat
/-- The identity of a class object. -/
scoped notation "ClsId" => Nat

/-- A function object: its `__name__`; the number of components of its `__qualname__` (`"ABCIRCToken.transfer"` has two); whether the platform has marked
it as an interface function; `__isabstractmethod__`; and, of a function made by `interface`, the function it stands for. -/
structure Fn where
  name : String
  parts : Nat
  marked : Bool
  abstract : Bool
  wraps : Option FnId
  deriving DecidableEq, Repr

/-- A class object: its order of resolution, beginning with itself, and the functions defined in it. -/
structure Cls where
  mro : List ClsId
  dict : List (String × FnId)
  deriving DecidableEq, Repr

/-- The objects there are, and the two caches of `ProxyScore`. -/
structure St where
  fn : FnId → Option Fn
  nfn : FnId
  cls : ClsId → Option Cls
  ncls : ClsId
  fnCache : FnId → Option FnId
  clsCache : ClsId → Option ClsId

/-- Code that may raise an exception. -/
abbrev P := ExceptT Err (StateM St)

/-- `getattr(cls, x)` (Python): the first definition in the order of resolution. -/
def getattr (s : St) (a : ClsId) (x : String) : Option FnId := do
  let c ← s.cls a
  c.mro.findSome? fun b => do (← s.cls b).dict.lookup x

/-- `dir(cls)` (Python): the names defined in the order of resolution. (Python sorts them.) -/
def dir (s : St) (a : ClsId) : List String :=
  match s.cls a with
  | none => []
  | some c => (c.mro.flatMap fun b => match s.cls b with | none => [] | some c => c.dict.map Prod.fst).eraseDups

/-- The platform's class `InterfaceScore`. -/
def INTERFACE_SCORE : ClsId := 0

/-- The decorator `interface` (platform, `iconservice/iconscore/icon_score_base.py`): the qualified name must have two components; a function may be decorated once
only; it is marked, and a new function is returned that calls the method of this name remotely and carries the attributes of the old one
(`functools.wraps`). -/
def interface (f : FnId) : P FnId := do
  let s ← get
  match s.fn f with
  | none => throw (.python "TypeError")
  | some g =>
    if g.parts ≠ 2 then throw (.python "ValueError")
    else if g.marked then throw (.platform "InvalidInterfaceException")
    else
      let marked := { g with marked := true }
      set { s with
        fn := fun i => if i = s.nfn then some { marked with wraps := some f } else if i = f then some marked else s.fn i
        nfn := s.nfn + 1 }
      return s.nfn

/-- `_get_interface_function`, proxy_score.py:57-68. -/
def getInterfaceFunction (f : FnId) : P FnId := do
  let s ← get
  match s.fnCache f with
  | some h => return h
  | none =>
    let h ← interface f
    -- cache[func] = interface_function = interface(func)
    modify fun s => { s with fnCache := fun i => if i = f then some h else s.fnCache i }
    -- interface_function.__isabstractmethod__ = False
    modify fun s => { s with fn := fun i => if i = h then (s.fn i).map fun g => { g with abstract := false } else s.fn i }
    return h

/-- The body of the loop of `_create_proxy_class`, proxy_score.py:47-51, with the dictionary so far. Entries of a Python dictionary are replaced. -/
def addFunction (a : ClsId) (d : List (String × FnId)) (x : String) : P (List (String × FnId)) := do
  let s ← get
  match getattr s a x with
  | none => throw (.python "AttributeError")
  | some f => match s.fn f with
    | none => throw (.python "TypeError")
    | some g =>
      if g.abstract then
        let h ← getInterfaceFunction f
        return d.filter (fun e => decide (e.1 ≠ g.name)) ++ [(g.name, h)]
      else return d

/-- `type(name, (InterfaceScore, abc_class), d)` (Python): a new class. There is no consistent order of resolution if `abc_class` is derived from
`InterfaceScore` itself. (That `ABC` and `object` come last in the order is left out: they define none of the methods.) -/
def newType (a : ClsId) (d : List (String × FnId)) : P ClsId := do
  let s ← get
  match s.cls a with
  | none => throw (.python "TypeError")
  | some c =>
    if c.mro.contains INTERFACE_SCORE then throw (.python "TypeError: Cannot create a consistent method resolution order (MRO)")
    else
      set { s with
        cls := fun i => if i = s.ncls then some { mro := s.ncls :: INTERFACE_SCORE :: c.mro, dict := d } else s.cls i
        ncls := s.ncls + 1 }
      return s.ncls

/-- `_create_proxy_class`, proxy_score.py:35-55. -/
def createProxyClass (a : ClsId) : P ClsId := do
  let s ← get
  let d ← (dir s a).foldlM (addFunction a) []
  newType a d

/-- `ProxyScore(abc_class)`: `__new__`, proxy_score.py:70-86. -/
def proxyScore (a : ClsId) : P ClsId := do
  let s ← get
  match s.clsCache a with
  | some p => return p
  | none =>
    let p ← createProxyClass a
    modify fun s => { s with clsCache := fun i => if i = a then some p else s.clsCache i }
    return p

/-- Calls of `ProxyScore`, one after the other; exceptions are caught. -/
def runs (s : St) (l : List ClsId) : St := l.foldl (fun s a => ((proxyScore a).run s).2) s

/-- The abstract methods left in a class; a class with any cannot be instantiated. -/
def abstracts (s : St) (a : ClsId) : List String :=
  (dir s a).filter fun x => ((getattr s a x).bind s.fn).any Fn.abstract

end Verif.Proxy
