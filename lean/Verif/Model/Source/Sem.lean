import Verif.Model.Source.Text
import Verif.Model.ClassTable
import Verif.Model.Exec
/-!
What the Python of `Text.lean` means: an interpreter. It knows nothing about the individual methods of the contracts: names are looked up
in the classes as Python does (`Py.mro`), bodies are run statement by statement.

The ledger is that of `World.lean`; the platform's storage objects (`VarDB`, `DictDB`, `ArrayDB`) are the fields of the ledger
(`Field`). A failure of any kind is `none`: all of them abort the call, so nothing else can be observed.
Simplifications: `__init__` is not run: every attribute is taken to be the storage object `fields` says (that is what `__init__` makes of it: C77); dicts are values, not references (the contracts never
share one); a number answered by `totalSupply` or `balanceOf` of another contract is checked when it arrives instead of where it is
used first; a `float` is known by its ceiling (see `JVal`), and whatever else would compute with floats fails; `json_dumps` writes `True` and `False` as 1
and 0 (as in Model/Network.lean); `None` may be stored in an `Address` field.
-/
set_option autoImplicit false
namespace Verif.Src

/-- Sequencing of what may fail. -/
def andThen {α β : Type} (x : Option α) (f : α → Option β) : Option β := match x with
  | none => none
  | some a => f a

@[inherit_doc] infixl:55 " >>- " => andThen

/-- The storage of a SCORE: owned.py:29-32, managed.py:34-35, irc_token.py:40-46, flexible_token.py:41-44, flexible_token_controller.py:43,
converter.py:156-176, score_registry.py:33, network.py:40. -/
inductive Field where
  | owner | newOwner | manager | newManager
  | name | symbol | decimals | totalSupply | balances
  | version | transferPossibility
  | token | allowRegistryUpdate | prevRegistry | registry | connectorTokens | totalConnectorWeight | maxConversionFee
  | conversionFee | conversionsEnabled | connectors
  | scoreAddress | icxTokens
  deriving DecidableEq, Repr

/-- The attribute each of them is. -/
def fields : List (String × Field) := [
  ("_owner", .owner), ("_new_owner", .newOwner), ("_manager", .manager), ("_new_manager", .newManager),
  ("_name", .name), ("_symbol", .symbol), ("_decimals", .decimals), ("_total_supply", .totalSupply), ("_balances", .balances),
  ("_version", .version), ("_transfer_possibility", .transferPossibility),
  ("_token", .token), ("_allow_registry_update", .allowRegistryUpdate), ("_prev_registry", .prevRegistry),
  ("_registry", .registry), ("_connector_tokens", .connectorTokens), ("_total_connector_weight", .totalConnectorWeight),
  ("_max_conversion_fee", .maxConversionFee), ("_conversion_fee", .conversionFee), ("_conversions_enabled", .conversionsEnabled),
  ("_connectors", .connectors), ("_score_address", .scoreAddress), ("_icx_tokens", .icxTokens)]

/-- The storage of a connector, converter.py:42-52. -/
inductive CField where
  | virtualBalance | weight | isVirtual | isPurchaseEnabled | isSet
  deriving DecidableEq, Repr

/-- The attribute each of them is. -/
def cfields : List (String × CField) := [
  ("virtual_balance", .virtualBalance), ("weight", .weight), ("is_virtual_balance_enabled", .isVirtual),
  ("is_purchase_enabled", .isPurchaseEnabled), ("is_set", .isSet)]

/-- Python's values. `str` is a string of the program or a parameter, `text` one that is taken apart (a path, an address), `decoded` the text of
a message, `bytes` a message; `obj` the SCORE itself or the formula, with its class; `cls` a class, `iclass` an interface SCORE class made by
`ProxyScore`, `iface` an interface to another SCORE; `conn` a connector, `field` and `cfield` storage objects; `method` a bound method; `expArray`
the list `_max_exp_array`. -/
inductive PV where
  | none
  | bool (b : Bool)
  | int (n : Int)
  | float (ceil : Int)
  | str (s : String)
  | text (s : List Char)
  | bytes (d : Data)
  | decoded (d : Data)
  | addr (a : Addr)
  | list (l : List PV)
  | tuple (l : List PV)
  | set (l : List PV)
  | dict (l : List (String × PV))
  | obj (c : String)
  | cls (c : String)
  | iclass (c : String)
  | iface (a : Addr) (c : String)
  | msg
  | icx
  | field (f : Field)
  | conn (a : Addr)
  | cfield (a : Addr) (f : CField)
  | method
  | expArray
  | other

/-- An address or `None`. -/
def optAddr : Option Addr → PV
  | none => .none
  | some a => .addr a

/-- Local variables. -/
abbrev Env := List (String × PV)

/-- The value of a variable. -/
def Env.get : Env → String → Option PV
  | [], _ => none
  | (y, v) :: r, x => if y = x then some v else Env.get r x

/-- The entry of a key: a dict is a list of pairs without repetitions, as a list of variables is. -/
def Env.set : Env → String → PV → Env
  | [], x, v => [(x, v)]
  | (y, u) :: r, x, v => if y = x then (x, v) :: r else (y, u) :: Env.set r x v

/-! ### Values -/

/-- `bool(v)` -/
def truth : PV → Option Bool
  | .bool b => some b
  | .int n => some (n ≠ 0)
  | .none => some false
  | _ => none

/-- A number (`bool` is a subclass of `int`). -/
def num : PV → Option Int
  | .int n => some n
  | .bool b => some (if b then 1 else 0)
  | _ => none

/-- `a & b` for `b` not negative (two's complement). -/
def band (a b : Int) : Option Int :=
  if 0 ≤ b then some ((a % 2 ^ (b.toNat.log2 + 1)).toNat &&& b.toNat : Nat) else none

/-- Arithmetic. -/
def arith : Op → Int → Int → Option Int
  | .add, a, b => some (a + b)
  | .sub, a, b => some (a - b)
  | .mul, a, b => some (a * b)
  | .fdiv, a, b => if b = 0 then none else some (a.fdiv b)
  | .mod, a, b => if b = 0 then none else some (a.fmod b)
  | .pow, a, b => if b < 0 then none else some (a ^ b.toNat)
  | .shl, a, b => if b < 0 then none else some (a * 2 ^ b.toNat)
  | .shr, a, b => if b < 0 then none else some (a >>> b.toNat)
  | .band, a, b => band a b
  | .bor, a, b => if 0 ≤ a ∧ 0 ≤ b then some (a.toNat ||| b.toNat : Nat) else none

/-- A binary operator. -/
def binop (o : Op) (a b : PV) : Option PV :=
  num a >>- fun x => num b >>- fun y => (arith o x y) >>- fun r => some (.int r)

/-- `a == b`; comparisons of containers are not needed. -/
def pyEq : PV → PV → Option Bool
  | .list _, .list _ => none
  | .tuple _, .tuple _ => none
  | .set _, .set _ => none
  | .dict _, .dict _ => none
  | .float _, .int _ => none
  | .int _, .float _ => none
  | .none, .none => some true
  | .addr a, .addr b => some (a = b)
  | .int a, .int b => some (a = b)
  | .bool a, .bool b => some (a = b)
  | .bool a, .int b => some ((if a then 1 else 0) = b)
  | .int a, .bool b => some (a = (if b then 1 else 0))
  | .str a, .str b => some (a = b)
  | .text a, .text b => some (a = b)
  | .bytes a, .bytes b => some (a = b)
  | _, _ => some false

/-- `a < b`, `a <= b`, `a > b`, `a >= b`. -/
def order : Cmp → PV → PV → Option Bool
  | .gt, .float c, b => num b >>- fun n => some (c > n)
  | .ge, a, .float c => num a >>- fun n => some (n ≥ c)
  | o, a, b => num a >>- fun x => num b >>- fun y => match o with
    | .lt => some (x < y)
    | .le => some (x ≤ y)
    | .gt => some (x > y)
    | .ge => some (x ≥ y)
    | _ => none

/-- `v is None` -/
def isNone : PV → Bool
  | .none => true
  | _ => false

/-- `x in l`, for a key and a dict or for a string and a list of strings. -/
def isIn : PV → PV → Option Bool
  | .str s, .dict d => some (d.any fun p => p.1 = s)
  | .str s, .list l => some (l.any fun v => pyEq v (.str s) = some true)
  | _, _ => none

/-- A comparison; `is` is only used with `None`. -/
def compare : Cmp → PV → PV → Option Bool
  | .eq, a, b => pyEq a b
  | .ne, a, b => pyEq a b >>- fun r => some (!r)
  | .is, a, .none => some (isNone a)
  | .isNot, a, .none => some (!isNone a)
  | .is, _, _ => none
  | .isNot, _, _ => none
  | .in_, a, b => isIn a b
  | .notIn, a, b => isIn a b >>- fun r => some (!r)
  | o, a, b => order o a b

/-- `l[i]` for a list (negative indices count from the end). -/
def pyIndex {α : Type} (l : List α) (i : Int) : Option α :=
  let j := if i < 0 then i + l.length else i
  if 0 ≤ j then l[j.toNat]? else none

/-- `range(a, b, s)` for `s = 2` or `s = -1`. -/
def range (a b : Int) : Int → Option (List PV)
  | 2 => some ((List.range ((b - a + 1) / 2).toNat).map fun (k : Nat) => .int (a + 2 * k))
  | -1 => some ((List.range (a - b).toNat).map fun (k : Nat) => .int (a - k))
  | _ => none

/-- Removes repetitions, as a `set` does. -/
def dedup (l : List PV) : List PV := l.eraseDupsBy fun a b => pyEq a b = some true

/-- A JSON value, read. -/
def ofJVal : JVal → PV
  | .null => .none
  | .int n => .int n
  | .bool b => .bool b
  | .float c => .float c
  | .str s => .text s
  | .other => .other

/-- A JSON value, to be written. -/
def toJVal : PV → Option JVal
  | .int n => some (.int n)
  | .bool b => some (.int (if b then 1 else 0))
  | .float c => some (.float c)
  | .text s => some (.str s)
  | _ => none

/-- The entries of a dict, to be written. -/
def toFields : List (String × PV) → Option (List (String × JVal))
  | [] => some []
  | (k, v) :: r => toJVal v >>- fun j => toFields r >>- fun l => some ((k, j) :: l)

/-- A literal of type `bytes`. -/
def bytesLit (s : String) : Option Data :=
  if s = "None" then some .noneBytes else if s = "conversionResult" then some .conversionResult else none

/-! ### Classes, functions and constants -/

/-- The order of resolution of a class (the formula is not in the table: it inherits nothing that is used). -/
def mroOf (c : String) : List String := (Py.mro Py.table 20 c).getD [c]

/-- The first of some classes that defines a method, with its definition. -/
def findIn (l : List String) (m : String) : Option (String × Def) :=
  l.findSome? fun c => ((methods.lookup c).bind fun ms => ms.lookup m).map fun d => (c, d)

/-- The method an object of class `c` is sent. -/
def find (c m : String) : Option (String × Def) := findIn (mroOf c) m

/-- The method `super().m` is, in class `here`, for an object of class `c`. -/
def findNext (c here m : String) : Option (String × Def) := findIn ((mroOf c).dropWhile (· ≠ here)).tail m

/-- The function of a name. -/
def function (f : String) : Option Def := functions.lookup f

/-- The value of a constant without names in it. -/
def literal : Expr → Option PV
  | .num n => some (.int n)
  | .str s => some (.str s)
  | .bytes s => (bytesLit s).map .bytes
  | .bool b => some (.bool b)
  | .fn "ProxyScore" (.cons (.name c) .nil) => some (.iclass c)
  | _ => none

/-- A list of names, with their values in a class. -/
def namesIn (cs : List (String × Expr)) : Expr → Option (List PV)
  | .nil => some []
  | .cons (.name x) l => ((cs.lookup x).bind literal) >>- fun v => namesIn cs l >>- fun r => some (v :: r)
  | _ => none

/-- The constant of a class, as found in its order of resolution. -/
def const (c x : String) : Option PV :=
  (mroOf c).findSome? fun d => (constants.lookup d).bind fun cs => (cs.lookup x).bind fun e => match e with
    | .list l => (namesIn cs l).map .list
    | e => literal e

/-- What a name means in the file of class `here` if it is no variable: a constant of the file, something imported, or a class. -/
def glob (here x : String) : Option PV :=
  match ((globals.lookup here).bind fun gs => gs.lookup x).bind literal with
  | some v => some v
  | none =>
    if x = "ZERO_SCORE_ADDRESS" then some (.addr ZERO)
    else if x = "formula" then some (.obj "FixedMapFormula")
    else if x = "Address" ∨ x = "Logger" ∨ x = "int" ∨ (Py.find Py.table x).isSome then some (.cls x)
    else none

/-- Whether an interface made of class `c` has method `m`. -/
def ifaceHas (c m : String) : Bool := ((Py.defs Py.table (mroOf c) m).head?).isSome

/-- `_max_exp_array`, fixed_map_formula.py:47 and 80-175. -/
def expArray : List PV := List.replicate 32 .none ++ maxExpArray.map .int

/-! ### Calls and answers -/

/-- The call of a method of another SCORE. -/
def mkCall : String → List PV → Option Call
  | "totalSupply", [] => some .totalSupply
  | "balanceOf", [.addr a] => some (.balanceOf a)
  | "transfer", [.addr a, .int v] => some (.transfer a v none)
  | "transfer", [.addr a, .int v, .bytes d] => some (.transfer a v (some d))
  | "tokenFallback", [.addr a, .int v, .bytes d] => some (.tokenFallback a v d)
  | "getOwner", [] => some .getOwner
  | "transferOwnerShip", [.addr a] => some (.transferOwnerShip a)
  | "acceptOwnerShip", [] => some .acceptOwnerShip
  | "disableTransfer", [.bool b] => some (.disableTransfer b)
  | "withdrawTokens", [.addr a, .addr b, .int v] => some (.withdrawTokens a b v)
  | "issue", [.addr a, .int v] => some (.issue a v)
  | "destroy", [.addr a, .int v] => some (.destroy a v)
  | "getAddress", [.str s] => some (.getAddress s)
  | "getReturn", [.addr a, .addr b, .int v] => some (.getReturn a b v)
  | "withdrawTo", [.int v, .addr a] => some (.withdrawTo v a)
  | _, _ => none

/-- An answer as a Python value. -/
def ofVal : Val → PV
  | .unit => .none
  | .int n => .int n
  | .bool b => .bool b
  | .str s => .str s
  | .strs l => .list (l.map .str)
  | .addr a => optAddr a
  | .ret a f => .dict [("amount", .int a), ("fee", .int f)]
  | .conn none => .dict []
  | .conn (some c) => .dict [("virtualBalance", .int c.virtualBalance), ("weight", .int c.weight),
      ("isVirtualBalanceEnabled", .bool c.isVirtual), ("isPurchaseEnabled", .bool c.isPurchaseEnabled), ("isSet", .bool c.isSet)]

/-- What arrives of the answer to a call of `m`. -/
def answer (m : String) (v : Val) : Option PV :=
  if m = "totalSupply" ∨ m = "balanceOf" then match v with
    | .int n => some (.int n)
    | .bool b => some (.int (if b then 1 else 0))
    | _ => none
  else some (ofVal v)

/-- A list of strings. -/
def strings : List PV → Option (List String)
  | [] => some []
  | .str s :: r => strings r >>- fun l => some (s :: l)
  | _ => none

/-- A Python value as the answer of a method whose declared type is `t`. -/
def toVal (t : String) : PV → Option Val
  | .none => some (if t = "Address" then .addr none else .unit)
  | .int n => some (.int n)
  | .bool b => some (.bool b)
  | .str s => some (.str s)
  | .addr a => some (.addr (some a))
  | .list l => (strings l).map .strs
  | .dict [] => some (.conn none)
  | .dict [("amount", .int a), ("fee", .int f)] => some (.ret a f)
  | .dict [("virtualBalance", .int v), ("weight", .int wt), ("isVirtualBalanceEnabled", .bool iv), ("isPurchaseEnabled", .bool p),
      ("isSet", .bool s)] => some (.conn (some ⟨v, wt, iv, p, s⟩))
  | _ => none

/-- An address or `None`. -/
def asOptAddr : PV → Option (Option Addr)
  | .none => some none
  | .addr a => some (some a)
  | _ => none

/-- The event log of an `@eventlog` method. -/
def mkEvent : String → List PV → Option Event
  | "Transfer", [.addr a, .addr b, .int v, .bytes d] => some (.Transfer a b v d)
  | "NewFlexibleToken", [.addr a] => some (.NewFlexibleToken a)
  | "Issuance", [.int v] => some (.Issuance v)
  | "Destruction", [.int v] => some (.Destruction v)
  | "OwnerUpdate", [a, b] => asOptAddr a >>- fun a => asOptAddr b >>- fun b => some (.OwnerUpdate a b)
  | "ManagerUpdate", [a, b] => asOptAddr a >>- fun a => asOptAddr b >>- fun b => some (.ManagerUpdate a b)
  | "Conversion", [.addr a, .addr b, .addr c, .int v, .int r, .int f] => some (.Conversion a b c v r f)
  | "PriceDataUpdate", [.addr a, .int s, .int b, .int wt] => some (.PriceDataUpdate a s b wt)
  | "ConversionFeeUpdate", [.int a, .int b] => some (.ConversionFeeUpdate a b)
  | "ConversionsEnable", [.bool b] => some (.ConversionsEnable b)
  | "AddressUpdate", [.str s, .addr a] => some (.AddressUpdate s a)
  | _, _ => none

/-! ### Storage -/

/-- What the code of a SCORE sees of its call: the frame, its class, and the means to call others. `loops` bounds the rounds of a `while`. -/
structure Cx where
  fr : Frame
  cls : String
  loops : Nat
  call : Addr → Int → Call → World → Option (Val × World)

/-- `self._x.get()` (an unset `VarDB` gives `0`, `""`, `False` or `None`). -/
def getField (s : Addr) (w : World) : Field → Option PV
  | .owner => some (optAddr (w.own s).owner)
  | .newOwner => some (optAddr (w.own s).newOwner)
  | .manager => some (optAddr (w.conv s).manager)
  | .newManager => some (optAddr (w.conv s).newManager)
  | .name => some (.str (w.tok s).name)
  | .symbol => some (.str (w.tok s).symbol)
  | .decimals => some (.int (w.tok s).decimals)
  | .totalSupply => some (.int (w.tok s).supply)
  | .version => some (.str (w.flex s).version)
  | .transferPossibility => some (.bool (w.flex s).transferable)
  | .token => some (optAddr (w.conv s).token)
  | .allowRegistryUpdate => some (.bool (w.conv s).allowRegistryUpdate)
  | .prevRegistry => some (optAddr (w.conv s).prevRegistry)
  | .registry => some (optAddr (w.conv s).registry)
  | .totalConnectorWeight => some (.int (w.conv s).totalWeight)
  | .maxConversionFee => some (.int (w.conv s).maxFee)
  | .conversionFee => some (.int (w.conv s).fee)
  | .conversionsEnabled => some (.bool (w.conv s).enabled)
  | _ => none

/-- `self._x.set(v)` -/
def setField (s : Addr) (w : World) : Field → PV → Option World
  | .owner, v => asOptAddr v >>- fun a => some (w.setOwn s { w.own s with owner := a })
  | .newOwner, v => asOptAddr v >>- fun a => some (w.setOwn s { w.own s with newOwner := a })
  | .manager, v => asOptAddr v >>- fun a => some (w.setConv s { w.conv s with manager := a })
  | .newManager, v => asOptAddr v >>- fun a => some (w.setConv s { w.conv s with newManager := a })
  | .name, .str n => some (w.setTok s { w.tok s with name := n })
  | .symbol, .str n => some (w.setTok s { w.tok s with symbol := n })
  | .decimals, .int n => some (w.setTok s { w.tok s with decimals := n })
  | .totalSupply, .int n => some (w.setTok s { w.tok s with supply := n })
  | .version, .str n => some (w.setFlex s { w.flex s with version := n })
  | .transferPossibility, .bool b => some (w.setFlex s { w.flex s with transferable := b })
  | .token, v => asOptAddr v >>- fun a => some (w.setConv s { w.conv s with token := a })
  | .allowRegistryUpdate, .bool b => some (w.setConv s { w.conv s with allowRegistryUpdate := b })
  | .prevRegistry, v => asOptAddr v >>- fun a => some (w.setConv s { w.conv s with prevRegistry := a })
  | .registry, v => asOptAddr v >>- fun a => some (w.setConv s { w.conv s with registry := a })
  | .totalConnectorWeight, .int n => some (w.setConv s { w.conv s with totalWeight := n })
  | .maxConversionFee, .int n => some (w.setConv s { w.conv s with maxFee := n })
  | .conversionFee, .int n => some (w.setConv s { w.conv s with fee := n })
  | .conversionsEnabled, .bool b => some (w.setConv s { w.conv s with enabled := b })
  | _, _ => none

/-- `connector.x.get()` -/
def getCField (s : Addr) (w : World) (a : Addr) : CField → PV
  | .virtualBalance => .int ((w.conv s).connectors a).virtualBalance
  | .weight => .int ((w.conv s).connectors a).weight
  | .isVirtual => .bool ((w.conv s).connectors a).isVirtual
  | .isPurchaseEnabled => .bool ((w.conv s).connectors a).isPurchaseEnabled
  | .isSet => .bool ((w.conv s).connectors a).isSet

/-- Replaces a connector. -/
def putConnector (s : Addr) (w : World) (a : Addr) (c : Connector) : World :=
  w.setConv s { w.conv s with connectors := upd (w.conv s).connectors a c }

/-- `connector.x.set(v)` -/
def setCField (s : Addr) (w : World) (a : Addr) : CField → PV → Option World
  | .virtualBalance, .int n => some (putConnector s w a { (w.conv s).connectors a with virtualBalance := n })
  | .weight, .int n => some (putConnector s w a { (w.conv s).connectors a with weight := n })
  | .isVirtual, .bool b => some (putConnector s w a { (w.conv s).connectors a with isVirtual := b })
  | .isPurchaseEnabled, .bool b => some (putConnector s w a { (w.conv s).connectors a with isPurchaseEnabled := b })
  | .isSet, .bool b => some (putConnector s w a { (w.conv s).connectors a with isSet := b })
  | _, _ => none

/-- `v[i]` -/
def getIndex (s : Addr) (w : World) : PV → PV → Option PV
  | .field .balances, .addr a => some (.int ((w.tok s).bal a))
  | .field .scoreAddress, .str n => some (optAddr (w.reg s n))
  | .field .icxTokens, .addr a => some (.bool (w.net s a))
  | .field .connectors, .addr a => some (.conn a)
  | .field .connectorTokens, .int i => (pyIndex (w.conv s).connectorTokens i).map .addr
  | .dict d, .str k => Env.get d k
  | .list l, .int i => pyIndex l i
  | .expArray, .int i => pyIndex expArray i
  | _, _ => none

/-- `self._x[i] = v` -/
def setIndex (s : Addr) (w : World) : PV → PV → PV → Option World
  | .field .balances, .addr a, .int n => some (w.setTok s { w.tok s with bal := upd (w.tok s).bal a n })
  | .field .scoreAddress, .str k, .addr a => some (w.setReg s (upd (w.reg s) k (some a)))
  | .field .icxTokens, .addr a, .bool b => some (w.setNet s (upd (w.net s) a b))
  | _, _, _ => none

/-- `del self._x[i]` -/
def delIndex (s : Addr) (w : World) : PV → PV → Option World
  | .field .scoreAddress, .str k => some (w.setReg s (upd (w.reg s) k none))
  | _, _ => none

/-! ### Expressions -/

/-- How a method body is run: by the class its text is in, the class of `self`, and the arguments. -/
abbrev Invoke := String → Option String → Def → List PV → World → Option (PV × World)

/-- `v.f` -/
def getAttr (cx : Cx) : PV → String → Option PV
  | .obj c, f =>
    if f = "address" then some (.addr cx.fr.to)
    else if f = "msg" then some .msg
    else if f = "icx" then some .icx
    else if f = "_max_exp_array" then some .expArray
    else match fields.lookup f with
      | some g => some (.field g)
      | none => match const c f with
        | some v => some v
        | none => if (find c f).isSome then some .method else none
  | .msg, f =>
    if f = "sender" then some (.addr cx.fr.sender)
    else if f = "value" then some (.int cx.fr.value)
    else none
  | .addr a, f => if f = "is_contract" then some (.bool a.isContract) else none
  | .iclass c, f => const c f
  | .conn a, f => (cfields.lookup f).map (.cfield a)
  | _, _ => none

/-- `len(v)` -/
def len (s : Addr) (w : World) : PV → Option PV
  | .list l => some (.int l.length)
  | .set l => some (.int l.length)
  | .field .connectorTokens => some (.int (w.conv s).connectorTokens.length)
  | _ => none

/-- The elements a loop runs through. -/
def elements : PV → Option (List PV)
  | .list l => some l
  | _ => none

/-- Functions that are not of the project. -/
def builtin (s : Addr) (w : World) : String → List PV → Option PV
  | "len", [v] => len s w v
  | "range", [.int a, .int b, .int d] => (range a b d).map .list
  | "enumerate", [.list l] => some (.list (l.zipIdx.map fun p => .tuple [.int p.2, p.1]))
  | "dict", [] => some (.dict [])
  | "json_loads", [.decoded (.json fs)] => some (.dict (fs.map fun p => (p.1, ofJVal p.2)))
  | "json_dumps", [.dict d] => (toFields d).map fun fs => .decoded (.json fs)
  | "str", [.addr a] => some (.text (Text.ofAddr a))
  | "isinstance", [v, .cls "int"] => some (.bool (num v).isSome)
  | "ProxyScore", [.cls c] => some (.iclass c)
  | _, _ => none

/-- Methods of strings and bytes. -/
def textMethod : PV → String → List PV → Option PV
  | .text s, "split", [.str ","] => some (.list ((Text.splitComma s).map .text))
  | .text s, "strip", [] => some (.text (Text.strip s))
  | .bytes d, "decode", [.str "utf-8"] => some (.decoded d)
  | .decoded d, "encode", [.str "utf-8"] => some (.bytes d)
  | _, _, _ => none

/-- `f(…)` -/
def callFn (cx : Cx) (k : Invoke) (f : String) (args : List PV) (w : World) : Option (PV × World) :=
  match function f with
  | some d => k "" none d args w
  | none => builtin cx.fr.to w f args >>- fun v => some (v, w)

/-- Runs a method that was found, or logs the event it stands for. -/
def runFound (cx : Cx) (k : Invoke) (self m : String) (args : List PV) (w : World) : Option (String × Def) → Option (PV × World)
  | some (h, d) =>
    if d.event then mkEvent m args >>- fun e => some (.none, w.addLog cx.fr.to e)
    else k h (some self) d args w
  | none => none

/-- `v.m(…)` -/
def send (cx : Cx) (k : Invoke) (m : String) (args : List PV) (w : World) : PV → Option (PV × World)
  | .obj c =>
    if m = "create_interface_score" then match args with
      | [.addr a, .iclass i] => some (.iface a i, w)
      | [.addr a, .cls i] => some (.iface a i, w)
      | _ => none
    else runFound cx k c m args w (find c m)
  | .cls c =>
    if c = "Logger" then some (.none, w)
    else if c = "Address" then
      if m = "from_string" then match args with
        | [.text s] => Text.toAddr s >>- fun a => some (.addr a, w)
        | _ => none
      else none
    else if c = "IconScoreBase" then some (.none, w)
    else match args with
      | .obj o :: rest => runFound cx k o m rest w (find c m)
      | _ => none
  | .field f =>
    if m = "get" then getField cx.fr.to w f >>- fun v => some (v, w)
    else if m = "set" then match args with
      | [v] => setField cx.fr.to w f v >>- fun w' => some (.none, w')
      | _ => none
    else if m = "put" then match f, args with
      | .connectorTokens, [.addr a] => some (.none, w.setConv cx.fr.to
          { w.conv cx.fr.to with connectorTokens := (w.conv cx.fr.to).connectorTokens ++ [a] })
      | _, _ => none
    else none
  | .cfield a f =>
    if m = "get" then some (getCField cx.fr.to w a f, w)
    else if m = "set" then match args with
      | [v] => setCField cx.fr.to w a f v >>- fun w' => some (.none, w')
      | _ => none
    else none
  | .icx =>
    if m = "transfer" then match args with
      | [.addr a, .int v] => cx.call a v .fallback w >>- fun p => some (.none, p.2)
      | _ => none
    else none
  | .iface a c =>
    if ifaceHas c m then mkCall m args >>- fun call => cx.call a 0 call w >>- fun p => answer m p.1 >>- fun v => some (v, p.2)
    else none
  | v => textMethod v m args >>- fun r => some (r, w)

/-- Runs `f` for every element and collects what it gives. -/
def forEach (f : PV → World → Option (Option PV × World)) : List PV → World → Option (List PV × World)
  | [], w => some ([], w)
  | v :: r, w => f v w >>- fun p => forEach f r p.2 >>- fun q => some (match p.1 with | some x => x :: q.1 | none => q.1, q.2)

/-- Sets the variables of a comprehension. -/
def bindVars (env : Env) : List String → PV → Option Env
  | [x], v => some (env.set x v)
  | [x, y], .tuple [u, v] => some ((env.set x u).set y v)
  | _, _ => none

/-- A dict display. -/
def pairs : List PV → Option (List (String × PV))
  | [] => some []
  | .str k :: v :: r => pairs r >>- fun l => some ((k, v) :: l)
  | _ => none

/-- The value of an argument list, as a Python list. -/
def listOf : PV → List PV
  | .list l => l
  | _ => []

/-- What a name means: the variable, or else what it means in the file of class `here`. -/
def resolve (here x : String) : Option PV → Option PV
  | some v => some v
  | none => glob here x

/-- `d[i] = v`, for a variable that holds a dict. -/
def storeKey (env : Env) (d : String) (v i : PV) (w : World) : Option PV → Option (Env × World)
  | some (.dict l) => match i with
    | .str key => some (env.set d (.dict (Env.set l key v)), w)
    | _ => none
  | _ => none

/-- The value of an expression in the text of class `here`, with its effects on the ledger. -/
def eval (cx : Cx) (k : Invoke) (here : String) : Expr → Env → World → Option (PV × World)
  | .num n, _, w => some (.int n, w)
  | .str s, _, w => some (.str s, w)
  | .bytes s, _, w => bytesLit s >>- fun d => some (.bytes d, w)
  | .bool b, _, w => some (.bool b, w)
  | .none, _, w => some (.none, w)
  | .fstr, _, w => some (.other, w)
  | .name x, env, w => resolve here x (env.get x) >>- fun v => some (v, w)
  | .attr e f, env, w => eval cx k here e env w >>- fun p => getAttr cx p.1 f >>- fun v => some (v, p.2)
  | .op o a b, env, w => eval cx k here a env w >>- fun p => eval cx k here b env p.2 >>- fun q =>
      binop o p.1 q.1 >>- fun v => some (v, q.2)
  | .cmp o a b, env, w => eval cx k here a env w >>- fun p => eval cx k here b env p.2 >>- fun q =>
      compare o p.1 q.1 >>- fun v => some (.bool v, q.2)
  | .chain a o b o' c, env, w => eval cx k here a env w >>- fun p => eval cx k here b env p.2 >>- fun q =>
      compare o p.1 q.1 >>- fun v =>
        if v then eval cx k here c env q.2 >>- fun r => compare o' q.1 r.1 >>- fun v => some (.bool v, r.2)
        else some (.bool false, q.2)
  | .and_ a b, env, w => eval cx k here a env w >>- fun p => truth p.1 >>- fun t =>
      if t then eval cx k here b env p.2 else some p
  | .or_ a b, env, w => eval cx k here a env w >>- fun p => truth p.1 >>- fun t =>
      if t then some p else eval cx k here b env p.2
  | .not_ a, env, w => eval cx k here a env w >>- fun p => truth p.1 >>- fun t => some (.bool (!t), p.2)
  | .cond c a b, env, w => eval cx k here c env w >>- fun p => truth p.1 >>- fun t =>
      if t then eval cx k here a env p.2 else eval cx k here b env p.2
  | .index e i, env, w => eval cx k here e env w >>- fun p => eval cx k here i env p.2 >>- fun q =>
      getIndex cx.fr.to q.2 p.1 q.1 >>- fun v => some (v, q.2)
  | .tuple l, env, w => eval cx k here l env w >>- fun p => some (.tuple (listOf p.1), p.2)
  | .list l, env, w => eval cx k here l env w
  | .dict l, env, w => eval cx k here l env w >>- fun p => pairs (listOf p.1) >>- fun d => some (.dict d, p.2)
  | .fn f l, env, w => eval cx k here l env w >>- fun p => callFn cx k f (listOf p.1) p.2
  | .meth o m l, env, w => eval cx k here o env w >>- fun p => eval cx k here l env p.2 >>- fun q =>
      send cx k m (listOf q.1) q.2 p.1
  | .sup m l, env, w => eval cx k here l env w >>- fun p => runFound cx k cx.cls m (listOf p.1) p.2 (findNext cx.cls here m)
  | .map_ x body it, env, w => eval cx k here it env w >>- fun p => elements p.1 >>- fun l =>
      forEach (fun v w => eval cx k here body (env.set x v) w >>- fun q => some (some q.1, q.2)) l p.2 >>- fun q =>
        some (.list q.1, q.2)
  | .comp set elt xs it c, env, w => eval cx k here it env w >>- fun p => elements p.1 >>- fun l =>
      forEach (fun v w => bindVars env xs v >>- fun env' => eval cx k here c env' w >>- fun q => truth q.1 >>- fun t =>
        if t then eval cx k here elt env' q.2 >>- fun r => some (some r.1, r.2) else some (none, q.2)) l p.2 >>- fun q =>
        some (if set then .set (dedup q.1) else .list q.1, q.2)
  | .nil, _, w => some (.list [], w)
  | .cons a l, env, w => eval cx k here a env w >>- fun p => eval cx k here l env p.2 >>- fun q =>
      some (.list (p.1 :: listOf q.1), q.2)

/-! ### Statements -/

/-- How a statement ends: with new local variables, or by `return`. -/
inductive Flow where
  | next (env : Env)
  | ret (v : PV)

/-- `t = v` -/
def store (cx : Cx) (k : Invoke) (here : String) (t : Expr) (v : PV) (env : Env) (w : World) : Option (Flow × World) :=
  match t with
  | .name x => some (.next (env.set x v), w)
  | .tuple (.cons (.name x) (.cons (.name y) .nil)) => match v with
    | .tuple [a, b] => some (.next ((env.set x a).set y b), w)
    | _ => none
  | .index (.name d) i => eval cx k here i env w >>- fun q =>
      storeKey env d v q.1 q.2 (env.get d) >>- fun r => some (.next r.1, r.2)
  | .index e i => eval cx k here e env w >>- fun p => eval cx k here i env p.2 >>- fun q =>
      setIndex cx.fr.to q.2 p.1 q.1 v >>- fun w' => some (.next env, w')
  | _ => none

/-- Whether the handlers of a `try` do nothing but revert: then it does not matter which of them catches what. -/
def reverts : Stmt → Bool
  | .expr (.fn f _) => f = "revert"
  | .alt a b => reverts a && reverts b
  | _ => false

/-- `for x in l: …` -/
def forLoop (x : String) (f : Env → World → Option (Flow × World)) : List PV → Env → World → Option (Flow × World)
  | [], env, w => some (.next env, w)
  | v :: r, env, w => f (env.set x v) w >>- fun p => match p.1 with
    | .next env' => forLoop x f r env' p.2
    | .ret u => some (.ret u, p.2)

/-- `while c: …`, with a bound on the number of rounds. -/
def whileLoop (c : Env → World → Option (PV × World)) (f : Env → World → Option (Flow × World)) :
    Nat → Env → World → Option (Flow × World)
  | 0, _, _ => none
  | n + 1, env, w => c env w >>- fun p => truth p.1 >>- fun t =>
    if t then f env p.2 >>- fun q => match q.1 with
      | .next env' => whileLoop c f n env' q.2
      | .ret u => some (.ret u, q.2)
    else some (.next env, p.2)

/-- Runs a statement of the text of class `here`. `revert(…)` is recognised here: it always fails. -/
def execS (cx : Cx) (k : Invoke) (here : String) : Stmt → Env → World → Option (Flow × World)
  | .expr e, env, w => eval cx k here e env w >>- fun p => some (.next env, p.2)
  | .pass, env, w => some (.next env, w)
  | .ret e, env, w => eval cx k here e env w >>- fun p => some (.ret p.1, p.2)
  | .assign t e, env, w => eval cx k here e env w >>- fun p => store cx k here t p.1 env p.2
  | .assign2 t t' e, env, w => eval cx k here e env w >>- fun p => store cx k here t p.1 env p.2 >>- fun q => match q.1 with
    | .next env' => store cx k here t' p.1 env' q.2
    | .ret _ => none
  | .aug t o e, env, w => eval cx k here t env w >>- fun p => eval cx k here e env p.2 >>- fun q =>
      binop o p.1 q.1 >>- fun v => store cx k here t v env q.2
  | .del t, env, w => match t with
    | .index e i => eval cx k here e env w >>- fun p => eval cx k here i env p.2 >>- fun q =>
        delIndex cx.fr.to q.2 p.1 q.1 >>- fun w' => some (.next env, w')
    | _ => none
  | .ite c a b, env, w => eval cx k here c env w >>- fun p => truth p.1 >>- fun t =>
      if t then execS cx k here a env p.2 else execS cx k here b env p.2
  | .for_ x e b, env, w => eval cx k here e env w >>- fun p => elements p.1 >>- fun l =>
      forLoop x (execS cx k here b) l env p.2
  | .while_ c b, env, w => whileLoop (eval cx k here c) (execS cx k here b) cx.loops env w
  | .try_ b h, env, w => if reverts h then execS cx k here b env w else none
  | .alt _ _, _, _ => none
  | .seq a b, env, w => execS cx k here a env w >>- fun p => match p.1 with
    | .next env' => execS cx k here b env' p.2
    | .ret v => some (.ret v, p.2)

/-- The value of the default of a parameter. -/
def default_ : Expr → Option PV
  | .none => some .none
  | e => literal e

/-- Parameters and arguments. -/
def bindParams : List (String × Option Expr) → List PV → Option Env
  | [], [] => some []
  | [], _ :: _ => none
  | (x, _) :: ps, v :: vs => bindParams ps vs >>- fun env => some ((x, v) :: env)
  | (x, some e) :: ps, [] => default_ e >>- fun v => bindParams ps [] >>- fun env => some ((x, v) :: env)
  | (_, none) :: _, [] => none

/-- `self` -/
def selfVar : Option String → Env
  | none => []
  | some c => [("self", .obj c)]

/-- Runs a function or method; the number bounds the depth of calls within the contract. -/
def invoke (cx : Cx) : Nat → Invoke
  | 0 => fun _ _ _ _ _ => none
  | n + 1 => fun here self d args w =>
    bindParams d.params args >>- fun env => execS cx (invoke cx n) here d.body (selfVar self ++ env) w >>- fun p =>
      match p.1 with
      | .next _ => some (.none, p.2)
      | .ret v => some (v, p.2)

end Verif.Src
