import Verif.Model.Converter
/-!
Model of contracts/network/network.py.
-/
namespace Verif.Network

/-- `_MAX_CONVERSION_COUNT`, network.py:36. -/
def MAX_CONVERSION_COUNT : Nat := 10

/-- The addresses at odd positions of a path (`path[1]`, `path[3]`, ...), network.py:134. -/
def oddPositions : List Addr → List Addr
  | [] => []
  | [_] => []
  | _ :: b :: rest => b :: oddPositions rest

/-- The length of the Python set built from a list, network.py:134-135. -/
def setSize (l : List Addr) : Nat := l.eraseDups.length

/-- The conditions of `_require_valid_path`, network.py:123-135. -/
def validPath (path : List Addr) : Bool :=
  (2 < path.length && path.length ≤ MAX_CONVERSION_COUNT * 2 + 1 && path.length % 2 = 1) &&
  setSize (oddPositions path) = path.length / 2

/-- `_require_valid_path`, network.py:123-135. -/
def requireValidPath (path : List Addr) : M Unit := require (validPath path = true) "invalid path"

/-- Reads a path string or fails, network.py:86-89. -/
def readPath (path : List Char) : M (List Addr) :=
  match Text.convertPath path with
  | some p => pure p
  | none => fail (.python "Invalid address")

/-- The loop of `getExpectedReturnByPath`, network.py:63-74: first argument the current token, second the rest of the path. -/
def expectedLoop (cx : Ctx) : Addr → List Addr → Int → M Int
  | from_, ft :: to :: rest, amount => do
    let v ← cx.call ft 0 .getOwner
    let converter ← asAddr v
    let r ← cx.call converter 0 (.getReturn from_ to amount)
    let amount ← asAmount r
    expectedLoop cx to rest amount
  | _, _, amount => pure amount

/-- `getExpectedReturnByPath`, network.py:48-74. -/
def getExpectedReturnByPath (cx : Ctx) (path : List Char) (amount : Int) : M Int := do
  let p ← readPath path
  requireValidPath p
  require (amount > 0) "Amount should be greater than 0"
  match p with
  | [] => fail (.python "IndexError")
  | a :: rest => expectedLoop cx a rest amount

/-- The data sent to a converter, network.py:280-282. -/
def requestData (toToken : Addr) (minReturn : Int) : Data :=
  .json [("toToken", .str (Text.ofAddr toToken)), ("minReturn", .int minReturn)]

/-- The loop of `_convert_by_path`, network.py:265-290: first argument the current token, second the rest of the path. -/
def convertLoop (cx : Ctx) (minReturn : Int) : Addr → List Addr → Int → M (Addr × Int)
  | from_, ft :: to :: rest, amount => do
    let v ← cx.call ft 0 .getOwner
    let converter ← asAddr v
    let v ← cx.call to 0 (.balanceOf cx.self)
    let before ← asInt v
    let m := if rest = [] then minReturn else 1
    let _ ← cx.call from_ 0 (.transfer converter amount (some (requestData to m)))
    let v ← cx.call to 0 (.balanceOf cx.self)
    let after ← asInt v
    convertLoop cx minReturn to rest (after - before)
  | from_, _, amount => pure (from_, amount)

/-- `_convert_for_internal`, network.py:230-252. -/
def convertForInternal (cx : Ctx) (path : List Addr) (amount minReturn : Int) (for_ : Addr) : M Int := do
  match path with
  | [] => fail (.python "IndexError")
  | a :: rest =>
    let (toToken, amount) ← convertLoop cx minReturn a rest amount
    let w ← get
    if w.net cx.self toToken then
      let _ ← cx.call toToken 0 (.withdrawTo amount for_)
    else
      let _ ← cx.call toToken 0 (.transfer for_ amount (some .noneBytes))
    return amount

/-- `_convert_bytes_data`, network.py:91-121. `none` models any exception. `isinstance(x, int)` holds for integers and
booleans (normalised to 0/1 here); floats are rejected. -/
def convertBytesData (data : Data) (tokenSender : Addr) : Option (List Addr × Int × Addr) :=
  match data with
  | .json fields =>
    match fields.lookup "path", fields.lookup "minReturn" with
    | some (.str p), some m =>
      match Text.convertPath p with
      | none => none
      | some path =>
        let minReturn : Option Int := match m with
          | .int n => some n
          | .bool b => some (if b then 1 else 0)
          | _ => none
        let for_ : Option Addr := match fields.lookup "for" with
          | none => some tokenSender
          | some .null => some tokenSender
          | some (.str s) => Text.toAddr s
          | some _ => none
        match minReturn, for_ with
        | some n, some f => some (path, n, f)
        | _, _ => none
    | _, _ => none
  | _ => none

/-- `tokenFallback`, network.py:151-183. -/
def tokenFallback (cx : Ctx) (from_ : Addr) (value : Int) (data : Data) : M Unit := do
  if data = .conversionResult then pure ()
  else
    match convertBytesData data from_ with
    | none => fail (.revert "cannot parse")
    | some (path, minReturn, for_) =>
      require (path.head? = some cx.sender) "wrong access, only token can call this method"
      require (minReturn > 0) "Amount should be greater than 0"
      require (isValidAddress (some for_))
      requireValidPath path
      let _ ← convertForInternal cx path value minReturn for_

/-- `convertFor`, network.py:200-228. -/
def convertFor (cx : Ctx) (path : List Char) (minReturn : Int) (for_ : Addr) : M Int := do
  let p ← readPath path
  requireValidPath p
  require (minReturn > 0) "Amount should be greater than 0"
  require (isValidAddress (some for_))
  require (cx.self ≠ for_)
  match p with
  | [] => fail (.python "IndexError")
  | icxToken :: _ =>
    let w ← get
    require (w.net cx.self icxToken = true) "wrong path, first address must be icx token"
    let _ ← cx.call icxToken cx.value .fallback
    convertForInternal cx p cx.value minReturn for_

/-- `convert`, network.py:185-198. -/
def convert (cx : Ctx) (path : List Char) (minReturn : Int) : M Int := convertFor cx path minReturn cx.sender

/-- `registerIcxToken`, network.py:137-149. -/
def registerIcxToken (cx : Ctx) (icxToken : Addr) (register : Bool) : M Unit := do
  Owned.requireOwnerOnly cx
  require (isValidAddress (some icxToken))
  require (cx.self ≠ icxToken)
  modify fun w => w.setNet cx.self (upd (w.net cx.self) icxToken register)

end Verif.Network
