import Verif.Model.Address
/-!
`contracts/utility/storage.py`: the class `Storage`, a wrapper that gives database fields the look of attributes.

Python's attribute access is modelled as far as the class uses it: an object has a dictionary of attributes of its own
(`attrs`), behind it are those of its class (of `Storage`, without names that begin with an underscore, only the method
`add_fields`; the special names of every Python object, such as `__dict__`, are left out: no theorem is about fields whose
names begin with an underscore, but for counterexamples). Of the platform's containers, a `VarDB` is a cell of the database under
its name; what is inside an `ArrayDB` or `DictDB` does not concern the class.
-/
namespace Verif.Storage

/-- Names of attributes and fields. -/
abbrev Name := List Char

/-- The value types of the platform's containers. -/
inductive Ty where
  | int | str | bool | bytes | address
  deriving DecidableEq, Repr

/-- What a `VarDB` can store (platform, `ContainerUtil.encode_value`). -/
inductive V where
  | int (i : Int)
  | str (s : List Char)
  | bool (b : Bool)
  | bytes (b : List UInt8)
  | address (a : Addr)
  deriving DecidableEq, Repr

/-- The type of a value. -/
def V.ty : V → Ty
  | .int _ => .int
  | .str _ => .str
  | .bool _ => .bool
  | .bytes _ => .bytes
  | .address _ => .address

/-- The platform's container classes. -/
inductive Cls where
  | var | dict | array
  deriving DecidableEq, Repr

/-- A field, as given to `add_fields` (storage.py:24-36): name, container class, value type. -/
structure Field where
  name : Name
  cls : Cls
  ty : Ty
  deriving DecidableEq, Repr

/-- Python objects that occur as attributes: `None`, a value, the SCORE's database, a container for a field, the bound method
`add_fields`. -/
inductive Obj where
  | none
  | val (v : V)
  | scoreDb
  | container (f : Field)
  | method
  deriving DecidableEq, Repr

/-- What a `VarDB` answers when nothing was stored (platform, `get_default_value`). -/
def Ty.default : Ty → Obj
  | .int => .val (.int 0)
  | .str => .val (.str [])
  | .bool => .val (.bool false)
  | .bytes => .none
  | .address => .none

/-- The cells of the database that belong to `VarDB`s, by name. -/
abbrev Disk := Name → Option V

/-- A `Storage` object and the database behind it. -/
structure St where
  attrs : Name → Option Obj
  disk : Disk

/-- The names the code spells out. -/
def dbName : Name := ['_', 'd', 'b']
def addFieldsName : Name := "add_fields".toList

/-- `object.__getattribute__` (Python): an attribute of the object, else of its class, else `AttributeError` (`none`). -/
def objectGet (s : St) (item : Name) : Option Obj :=
  match s.attrs item with
  | some o => some o
  | .none => if item = addFieldsName then some .method else .none

/-- `VarDB.get` (platform): the stored value, or the default. `misread` is what comes of reading a value that was stored under
another type. -/
def varGet (misread : Ty → V → Obj) (s : St) (f : Field) : Obj :=
  match s.disk f.name with
  | .none => f.ty.default
  | some v => if v.ty = f.ty then .val v else misread f.ty v

/-- `VarDB.set` (platform): only values can be stored. -/
def varSet (s : St) (f : Field) : Obj → Except Err St
  | .val v => .ok { s with disk := fun n => if n = f.name then some v else s.disk n }
  | _ => .error (.platform "unsupported type")

/-- `item.startswith('_')`, storage.py:60. -/
def hidden : Name → Bool
  | '_' :: _ => true
  | _ => false

/-- `Storage.__getattribute__`, storage.py:59-67. `hasattr(self, shadow)` and `getattr(self, shadow)` (62, 65) come back to this
method with a name that begins with an underscore, so to `object.__getattribute__`. -/
def getattribute (misread : Ty → V → Obj) (s : St) (item : Name) : Except Err Obj :=
  if ¬ hidden item then
    match objectGet s ('_' :: item) with
    | some (.container f) => if f.cls = .var then .ok (varGet misread s f) else .ok (.container f)
    | some o => .ok o
    | .none => match objectGet s item with
      | some o => .ok o
      | .none => .error (.python "AttributeError")
  else match objectGet s item with
    | some o => .ok o
    | .none => .error (.python "AttributeError")

/-- `Storage.__setattr__`, storage.py:51-57. -/
def setattr (s : St) (item : Name) (value : Obj) : Except Err St :=
  match objectGet s ('_' :: item) with
  | some (.container f) =>
    if f.cls = .var then varSet s f value
    else .ok { s with attrs := fun n => if n = item then some value else s.attrs n }
  | _ => .ok { s with attrs := fun n => if n = item then some value else s.attrs n }

/-- `Storage.__init__`, storage.py:38-39, on a database. -/
def new (disk : Disk) : Except Err St := setattr { attrs := fun _ => .none, disk := disk } dbName .scoreDb

/-- The body of the loop of `Storage.add_fields`, storage.py:47-49. Creating a container on something other than a database
fails. (`self._db` begins with an underscore, so it is looked up directly.) -/
def addField (s : St) (f : Field) : Except Err St :=
  match objectGet s dbName with
  | some .scoreDb => setattr s ('_' :: f.name) (.container f)
  | _ => .error (.python "AttributeError")

/-- `storage.add_fields(field_infos)`, storage.py:41-49: the method is looked up like any attribute, then called. -/
def addFields (misread : Ty → V → Obj) (s : St) (fields : List Field) : Except Err St := do
  match ← getattribute misread s addFieldsName with
  | .method => fields.foldlM addField s
  | _ => .error (.python "TypeError: not callable")

/-- A new `Storage` with the given fields on a database, as in a SCORE's `__init__`. -/
def create (misread : Ty → V → Obj) (disk : Disk) (fields : List Field) : Except Err St := do
  addFields misread (← new disk) fields

end Verif.Storage
