import Verif.Model.Network
/-!
The bytes of messages: what `json_dumps(data).encode('utf-8')` (network.py:282) writes and what
`json_loads(data.decode('utf-8'))` (network.py:105, converter.py:245) reads.

`json_loads`/`json_dumps` are Python's `json.loads`/`json.dumps` (the platform re-exports them), `decode`/`encode` are
Python's UTF-8 codec. Neither is in /repo; what is modelled is the behaviour of CPython's `json` package with default
arguments (`json/decoder.py`, `json/encoder.py`, `_json.c`). Left open, as parameters: what a number with a fraction or
an exponent is read as (`float`), and how deep documents may nest before Python gives up (`limit`, a `RecursionError`).
Simplifications: integers of any number of digits are read (newer Python versions refuse more than 4300 digits); of
nested lists and objects only the extent is kept (`JVal.other`), since every use of them by the contracts fails.
-/
namespace Verif.Json

/-! ### UTF-8 (network.py:105, 282, converter.py:245) -/

/-- The low six bits of a continuation byte. -/
def cont (b : UInt8) : Option Nat := if 0x80 ≤ b.toNat ∧ b.toNat < 0xC0 then some (b.toNat - 0x80) else none

/-- `bytes.decode('utf-8')` (network.py:105, converter.py:245); `none` is `UnicodeDecodeError`: continuation bytes out of
place, overlong forms, surrogates, and code points above 0x10FFFF. -/
def decodeUtf8 : List UInt8 → Option (List Char)
  | [] => some []
  | b :: rest =>
    if b.toNat < 0x80 then (decodeUtf8 rest).map (Char.ofNat b.toNat :: ·)
    else if b.toNat < 0xC2 then none
    else if b.toNat < 0xE0 then
      match rest with
      | c :: rest => do
        let x ← cont c
        (decodeUtf8 rest).map (Char.ofNat ((b.toNat - 0xC0) * 64 + x) :: ·)
      | _ => none
    else if b.toNat < 0xF0 then
      match rest with
      | c :: d :: rest => do
        let x ← cont c
        let y ← cont d
        let n := ((b.toNat - 0xE0) * 64 + x) * 64 + y
        if n < 0x800 ∨ (0xD800 ≤ n ∧ n < 0xE000) then none
        else (decodeUtf8 rest).map (Char.ofNat n :: ·)
      | _ => none
    else if b.toNat < 0xF5 then
      match rest with
      | c :: d :: e :: rest => do
        let x ← cont c
        let y ← cont d
        let z ← cont e
        let n := (((b.toNat - 0xF0) * 64 + x) * 64 + y) * 64 + z
        if n < 0x10000 ∨ 0x110000 ≤ n then none
        else (decodeUtf8 rest).map (Char.ofNat n :: ·)
      | _ => none
    else none

/-! ### `json.loads` -/

/-- White space of JSON (`WHITESPACE`, json/decoder.py). -/
def isBlank (c : Char) : Bool := c = ' ' || c = '\t' || c = '\n' || c = '\r'

/-- Skips white space. -/
def skip (t : List Char) : List Char := t.dropWhile isBlank

/-- A decimal digit. -/
def isDigit (c : Char) : Bool := '0' ≤ c && c ≤ '9'

/-- Value of a hexadecimal digit of either case (`_json.c`, `scanstring_unicode`). -/
def hexDigit (c : Char) : Option Nat :=
  if '0' ≤ c ∧ c ≤ '9' then some (c.toNat - 48)
  else if 'a' ≤ c ∧ c ≤ 'f' then some (c.toNat - 87)
  else if 'A' ≤ c ∧ c ≤ 'F' then some (c.toNat - 55)
  else none

/-- Four hexadecimal digits. -/
def hex4 (a b c d : Char) : Option Nat := do
  let a ← hexDigit a
  let b ← hexDigit b
  let c ← hexDigit c
  let d ← hexDigit d
  return ((a * 16 + b) * 16 + c) * 16 + d

/-- The escapes of one letter (`BACKSLASH`, json/decoder.py). -/
def shortEscape (c : Char) : Option Char :=
  if c = '"' then some '"' else if c = '\\' then some '\\' else if c = '/' then some '/'
  else if c = 'b' then some (Char.ofNat 8) else if c = 'f' then some (Char.ofNat 12) else if c = 'n' then some '\n'
  else if c = 'r' then some '\r' else if c = 't' then some '\t' else none

/-- The inside of a string up to and with its closing quote, as code units: an escape `\uXXXX` gives one unit
(`scanstring_unicode`, strict). -/
def scanUnits : List Char → Option (List Nat × List Char)
  | [] => none
  | c :: t =>
    if c = '"' then some ([], t)
    else if c = '\\' then
      match t with
      | [] => none
      | e :: t =>
        if e = 'u' then
          match t with
          | a :: b :: c :: d :: t => do
            let n ← hex4 a b c d
            let (s, r) ← scanUnits t
            return (n :: s, r)
          | _ => none
        else do
          let x ← shortEscape e
          let (s, r) ← scanUnits t
          return (x.toNat :: s, r)
    else if c.toNat < 32 then none
    else do
      let (s, r) ← scanUnits t
      return (c.toNat :: s, r)

/-- First half of a surrogate pair. -/
def isHigh (n : Nat) : Bool := 0xD800 ≤ n && n < 0xDC00
/-- Second half of a surrogate pair. -/
def isLow (n : Nat) : Bool := 0xDC00 ≤ n && n < 0xE000

/-- Joins surrogate pairs (`scanstring_unicode`). Only escapes give surrogates here, as UTF-8 has none. -/
def join : List Nat → List Nat
  | [] => []
  | [a] => [a]
  | a :: b :: t => if isHigh a && isLow b then (0x10000 + (a - 0xD800) * 1024 + (b - 0xDC00)) :: join t else a :: join (b :: t)

/-- A string after its opening quote. A lone surrogate, which Python keeps and Lean's `Char` lacks, becomes the character
0; neither occurs in addresses or in the keys the contracts ask for, and neither is white space. -/
def scanString (t : List Char) : Option (List Char × List Char) :=
  match scanUnits t with
  | none => none
  | some (u, r) => some ((join u).map Char.ofNat, r)

/-- Value of a list of decimal digits. -/
def natOf (ds : List Char) : Nat := ds.foldl (fun n c => n * 10 + (c.toNat - 48)) 0

/-- The integer part of a number: `0` or digits that do not begin with `0` (`_match_number_unicode`). -/
def intPart (t : List Char) : Option (List Char × List Char) :=
  match t with
  | [] => none
  | c :: r => if c = '0' then some (['0'], r) else if isDigit c then some ((c :: r).takeWhile isDigit, (c :: r).dropWhile isDigit) else none

/-- The fraction of a number, if there is one. -/
def fracPart (t : List Char) : List Char × List Char :=
  match t with
  | c :: d :: r => if c = '.' ∧ isDigit d = true then ((c :: (d :: r).takeWhile isDigit), (d :: r).dropWhile isDigit) else ([], t)
  | _ => ([], t)

/-- The exponent of a number, if there is one. -/
def expPart (t : List Char) : List Char × List Char :=
  match t with
  | c :: d :: r =>
    if c = 'e' ∨ c = 'E' then
      if isDigit d = true then (c :: (d :: r).takeWhile isDigit, (d :: r).dropWhile isDigit)
      else if (d = '+' ∨ d = '-') ∧ (r.takeWhile isDigit) ≠ [] then (c :: d :: r.takeWhile isDigit, r.dropWhile isDigit)
      else ([], t)
    else ([], t)
  | _ => ([], t)

/-- A number (`_match_number_unicode`). -/
def number (float : List Char → JVal) (t : List Char) : Option (JVal × List Char) :=
  let neg := t.head? = some '-'
  match intPart (if neg then t.tail else t) with
  | none => none
  | some (ds, r) =>
    let f := fracPart r
    let e := expPart f.2
    if f.1 = [] ∧ e.1 = [] then some (.int (if neg then - (natOf ds : Int) else natOf ds), r)
    else some (float ((if neg then ['-'] else []) ++ ds ++ f.1 ++ e.1), e.2)

/-- `dict[k] = v`. -/
def setKey (l : List (String × JVal)) (k : String) (v : JVal) : List (String × JVal) :=
  if l.any (fun e => e.1 = k) then l.map (fun e => if e.1 = k then (k, v) else e) else l ++ [(k, v)]

/-- The members of an object from the first key on (`_parse_object_unicode`). The number bounds the number of members. -/
def members (value : List Char → Option (JVal × List Char)) :
    Nat → List (String × JVal) → List Char → Option (List (String × JVal) × List Char)
  | 0, _, _ => none
  | n + 1, acc, t =>
    match t with
    | [] => none
    | c :: t =>
      if c = '"' then do
        let (k, t) ← scanString t
        match skip t with
        | [] => none
        | c :: t =>
          if c = ':' then do
            let (v, t) ← value (skip t)
            let acc := setKey acc (String.ofList k) v
            match skip t with
            | [] => none
            | c :: t =>
              if c = '}' then some (acc, t)
              else if c = ',' then members value n acc (skip t)
              else none
          else none
      else none

/-- An object after its opening brace. -/
def object (value : List Char → Option (JVal × List Char)) (t : List Char) : Option (List (String × JVal) × List Char) :=
  match skip t with
  | [] => none
  | c :: r => if c = '}' then some ([], r) else members value (c :: r).length [] (c :: r)

/-- The elements of a list from the first on (`_parse_array_unicode`). -/
def elements (value : List Char → Option (JVal × List Char)) : Nat → List Char → Option (List Char)
  | 0, _ => none
  | n + 1, t => do
    let (_, t) ← value t
    match skip t with
    | [] => none
    | c :: t =>
      if c = ']' then some t
      else if c = ',' then elements value n (skip t)
      else none

/-- A list after its opening bracket. -/
def array (value : List Char → Option (JVal × List Char)) (t : List Char) : Option (List Char) :=
  match skip t with
  | [] => none
  | c :: r => if c = ']' then some r else elements value (c :: r).length (c :: r)

/-- The words that stand for values (`scan_once_unicode`); the last three are Python's own. -/
def words : List (List Char × JVal) :=
  [("null".toList, .null), ("true".toList, .bool true), ("false".toList, .bool false),
   ("NaN".toList, .other), ("Infinity".toList, .other), ("-Infinity".toList, .other)]

/-- A value (`scan_once_unicode`); the first number is how deep it may nest. -/
def value (float : List Char → JVal) : Nat → List Char → Option (JVal × List Char)
  | 0, _ => none
  | n + 1, t =>
    match t with
    | [] => none
    | c :: r =>
      if c = '"' then (scanString r).map fun (s, r) => (.str s, r)
      else if c = '{' then (object (value float n) r).map fun (_, r) => (.other, r)
      else if c = '[' then (array (value float n) r).map fun r => (.other, r)
      else match words.find? fun e => e.1.isPrefixOf t with
        | some e => some (e.2, t.drop e.1.length)
        | none => number float t

/-- `json.loads` of a text, as far as it gives a `dict`; `none` for everything else. -/
def loads (float : List Char → JVal) (limit : Nat) (t : List Char) : Option (List (String × JVal)) :=
  if t.head? = some (Char.ofNat 0xFEFF) then none
  else match skip t with
    | [] => none
    | c :: r =>
      if c = '{' then
        match object (value float limit) r with
        | some (fields, rest) => if skip rest = [] then some fields else none
        | none => none
      else none

/-- A number for bytes that are no message, different for different bytes. -/
def tag (b : List UInt8) : Nat := b.foldl (fun n x => n * 257 + (x.toNat + 1)) 0

/-- What the ledger model keeps of `_data: bytes` (see `Data`). -/
def ofBytes (float : List Char → JVal) (limit : Nat) (b : List UInt8) : Data :=
  if b = "None".toList.flatMap String.utf8EncodeChar then .noneBytes
  else if b = "conversionResult".toList.flatMap String.utf8EncodeChar then .conversionResult
  else match (decodeUtf8 b).bind (loads float limit) with
    | some fields => .json fields
    | none => .junk (tag b)

/-! ### `json.dumps` -/

/-- Decimal digits; the first number bounds how many. -/
def digitsAux : Nat → Nat → List Char
  | 0, _ => []
  | k + 1, n => if n < 10 then [Char.ofNat (48 + n)] else digitsAux k (n / 10) ++ [Char.ofNat (48 + n % 10)]

/-- `str(n)` of an integer. -/
def strInt (n : Int) : List Char :=
  if n < 0 then '-' :: digitsAux (n.natAbs + 1) n.natAbs else digitsAux (n.natAbs + 1) n.natAbs

/-- `'\\u{0:04x}'`. -/
def uEscape (n : Nat) : List Char := '\\' :: 'u' :: Text.hexDigits 4 n

/-- One character of a string (`py_encode_basestring_ascii`, json/encoder.py). -/
def escapeChar (c : Char) : List Char :=
  if c = '"' then ['\\', '"'] else if c = '\\' then ['\\', '\\'] else if c = '\n' then ['\\', 'n']
  else if c = '\r' then ['\\', 'r'] else if c = '\t' then ['\\', 't'] else if c.toNat = 12 then ['\\', 'f']
  else if c.toNat = 8 then ['\\', 'b'] else if 32 ≤ c.toNat ∧ c.toNat ≤ 126 then [c]
  else if c.toNat < 0x10000 then uEscape c.toNat
  else uEscape (0xD800 + (c.toNat - 0x10000) / 1024) ++ uEscape (0xDC00 + (c.toNat - 0x10000) % 1024)

/-- A string with its quotes. -/
def quote (s : List Char) : List Char := '"' :: s.flatMap escapeChar ++ ['"']

/-- A value (`_iterencode`, json/encoder.py). Nothing writes floats, lists or nested objects here; they are left out. -/
def dumpValue : JVal → List Char
  | .null => "null".toList
  | .bool true => "true".toList
  | .bool false => "false".toList
  | .int n => strInt n
  | .str s => quote s
  | _ => []

/-- `json.dumps` of a `dict` with the default separators. -/
def dumps (fields : List (String × JVal)) : List Char :=
  '{' :: [',', ' '].intercalate (fields.map fun e => quote e.1.toList ++ [':', ' '] ++ dumpValue e.2) ++ ['}']

/-- `str.encode('utf-8')` (network.py:282). -/
def encodeUtf8 (t : List Char) : List UInt8 := t.flatMap String.utf8EncodeChar

/-- The bytes the network sends along with tokens to a converter, network.py:280-282. -/
def requestBytes (toToken : Addr) (minReturn : Int) : List UInt8 :=
  encodeUtf8 (dumps [("toToken", .str (Text.ofAddr toToken)), ("minReturn", .int minReturn)])

end Verif.Json
