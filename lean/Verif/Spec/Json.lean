import Verif.Spec
/-!
The JSON texts (RFC 8259) and what they stand for, written from the grammar of the standard, not from the parser.
`JVal` is the value a contract sees: lists, nested objects and Python's `NaN`/`Infinity` are all `other`.

Python's reader is more liberal than the standard; with `py = true` the grammar has what Python allows in addition: half a
surrogate pair on its own in a string, and the words `NaN`, `Infinity` and `-Infinity`.
-/
set_option autoImplicit false
namespace Verif.Json.Spec

/-- Optional white space. -/
def Blank (t : List Char) : Prop := ∀ c ∈ t, c = ' ' ∨ c = '\t' ∨ c = '\n' ∨ c = '\r'

/-- A non-empty string of decimal digits. -/
def Digits (t : List Char) : Prop := t ≠ [] ∧ ∀ c ∈ t, '0' ≤ c ∧ c ≤ '9'

/-- The digits without sign that integers are written with: no superfluous zero in front. -/
def IntText (t : List Char) : Prop := t = ['0'] ∨ (Digits t ∧ t.head? ≠ some '0')

/-- The number a string of digits stands for. -/
def valueOf : List Char → Nat
  | [] => 0
  | c :: t => (c.toNat - '0'.toNat) * 10 ^ t.length + valueOf t

/-- The fraction and the exponent of a number. -/
def FracText (t : List Char) : Prop := ∃ d, Digits d ∧ t = '.' :: d
def ExpText (t : List Char) : Prop := ∃ e s d, (e = 'e' ∨ e = 'E') ∧ (s = [] ∨ s = ['+'] ∨ s = ['-']) ∧ Digits d ∧ t = e :: s ++ d

/-- A hexadecimal digit of either case and its value. -/
def hexDigits : List (Char × Nat) :=
  [('0', 0), ('1', 1), ('2', 2), ('3', 3), ('4', 4), ('5', 5), ('6', 6), ('7', 7), ('8', 8), ('9', 9), ('a', 10), ('b', 11),
   ('c', 12), ('d', 13), ('e', 14), ('f', 15), ('A', 10), ('B', 11), ('C', 12), ('D', 13), ('E', 14), ('F', 15)]

/-- `\uXXXX` names the code unit `n`. -/
def Unit (n : Nat) (t : List Char) : Prop := ∃ a b c d x y z w, (a, x) ∈ hexDigits ∧ (b, y) ∈ hexDigits ∧ (c, z) ∈ hexDigits ∧
  (d, w) ∈ hexDigits ∧ n = 4096 * x + 256 * y + 16 * z + w ∧ t = ['\\', 'u', a, b, c, d]

/-- The escapes of one letter, and the characters they stand for. -/
def escapes : List (Char × Char) :=
  [('"', '"'), ('\\', '\\'), ('/', '/'), ('b', '\x08'), ('f', '\x0c'), ('n', '\x0a'), ('r', '\x0d'), ('t', '\x09')]

/-- How one character may be written inside a string. -/
inductive CharText (py : Bool) : Char → List Char → Prop
  | raw (c : Char) (h : ' ' ≤ c) (h1 : c ≠ '"') (h2 : c ≠ '\\') : CharText py c [c]
  | short (e c : Char) (h : (e, c) ∈ escapes) : CharText py c ['\\', e]
  | unit (n : Nat) (t : List Char) (h : Unit n t) (hn : n < 0xD800 ∨ 0xE000 ≤ n) : CharText py (Char.ofNat n) t
  | pair (hi lo : Nat) (t u : List Char) (h1 : Unit hi t) (h2 : Unit lo u) (h3 : 0xD800 ≤ hi ∧ hi < 0xDC00)
      (h4 : 0xDC00 ≤ lo ∧ lo < 0xE000) : CharText py (Char.ofNat (0x10000 + (hi - 0xD800) * 1024 + (lo - 0xDC00))) (t ++ u)
  | lone (n : Nat) (t : List Char) (h : Unit n t) (hn : 0xD800 ≤ n ∧ n < 0xE000) (hpy : py = true) : CharText py (Char.ofNat 0) t

/-- How a string may be written, without the quotes. -/
inductive Chars (py : Bool) : List Char → List Char → Prop
  | nil : Chars py [] []
  | cons (c : Char) (s t u : List Char) (h : CharText py c t) (hs : Chars py s u) : Chars py (c :: s) (t ++ u)

/-- How a string may be written. -/
def Str (py : Bool) (s t : List Char) : Prop := ∃ u, Chars py s u ∧ t = '"' :: u ++ ['"']

/-- Members of an object, each a key and a value with optional white space around everything, separated by commas. `V v t` says
that the value `v` may be written `t`. -/
inductive Members (py : Bool) (V : JVal → List Char → Prop) : List (List Char × JVal) → List Char → Prop
  | last (k : List Char) (v : JVal) (a kt b c vt d : List Char) (ha : Blank a) (hk : Str py k kt) (hb : Blank b) (hc : Blank c)
      (hv : V v vt) (hd : Blank d) : Members py V [(k, v)] (a ++ kt ++ b ++ ':' :: c ++ vt ++ d)
  | more (k : List Char) (v : JVal) (a kt b c vt d : List Char) (l : List (List Char × JVal)) (t : List Char) (ha : Blank a)
      (hk : Str py k kt) (hb : Blank b) (hc : Blank c) (hv : V v vt) (hd : Blank d) (hl : Members py V l t) :
      Members py V ((k, v) :: l) (a ++ kt ++ b ++ ':' :: c ++ vt ++ d ++ ',' :: t)

/-- An object. -/
inductive Obj (py : Bool) (V : JVal → List Char → Prop) : List (List Char × JVal) → List Char → Prop
  | empty (a : List Char) (h : Blank a) : Obj py V [] ('{' :: a ++ ['}'])
  | full (l : List (List Char × JVal)) (t : List Char) (h : Members py V l t) : Obj py V l ('{' :: t ++ ['}'])

/-- Elements of a list, separated by commas. -/
inductive Elements (V : JVal → List Char → Prop) : List Char → Prop
  | last (v : JVal) (a t b : List Char) (ha : Blank a) (hv : V v t) (hb : Blank b) : Elements V (a ++ t ++ b)
  | more (v : JVal) (a t b u : List Char) (ha : Blank a) (hv : V v t) (hb : Blank b) (hu : Elements V u) :
      Elements V (a ++ t ++ b ++ ',' :: u)

/-- A list. -/
inductive Arr (V : JVal → List Char → Prop) : List Char → Prop
  | empty (a : List Char) (h : Blank a) : Arr V ('[' :: a ++ [']'])
  | full (t : List Char) (h : Elements V t) : Arr V ('[' :: t ++ [']'])

/-- Values that are neither lists nor objects. `float` says what a number with a fraction or an exponent is taken for. -/
inductive Scalar (py : Bool) (float : List Char → JVal) : JVal → List Char → Prop
  | null : Scalar py float .null "null".toList
  | true : Scalar py float (.bool true) "true".toList
  | false : Scalar py float (.bool false) "false".toList
  | nat (t : List Char) (h : IntText t) : Scalar py float (.int (valueOf t)) t
  | neg (t : List Char) (h : IntText t) : Scalar py float (.int (-(valueOf t))) ('-' :: t)
  | float (s t f e : List Char) (hs : s = [] ∨ s = ['-']) (ht : IntText t) (hf : f = [] ∨ FracText f) (he : e = [] ∨ ExpText e)
      (hfe : f ++ e ≠ []) : Scalar py float (float (s ++ t ++ f ++ e)) (s ++ t ++ f ++ e)
  | str (s t : List Char) (h : Str py s t) : Scalar py float (.str s) t
  | word (t : List Char) (h : t ∈ ["NaN".toList, "Infinity".toList, "-Infinity".toList]) (hpy : py = true) : Scalar py float .other t

/-- Values nested at most so deep. -/
def Value (py : Bool) (float : List Char → JVal) : Nat → JVal → List Char → Prop
  | 0, _, _ => False
  | n + 1, v, t => Scalar py float v t ∨ (v = .other ∧ (Arr (Value py float n) t ∨ ∃ l, Obj py (Value py float n) l t))

/-- A document: an object with white space around it. -/
def Document (py : Bool) (float : List Char → JVal) (n : Nat) (l : List (List Char × JVal)) (t : List Char) : Prop :=
  ∃ a b u, Blank a ∧ Blank b ∧ Obj py (Value py float n) l u ∧ t = a ++ u ++ b

/-- The last value given for a key. -/
def lastOf (k : List Char) : List (List Char × JVal) → Option JVal
  | [] => none
  | e :: l => match lastOf k l with
    | some v => some v
    | none => if e.1 = k then some e.2 else none

/-- The text `t` of a message of `s` asks the network to convert along `path` into at least `m` for `f`: it is a JSON object with
the text of the path under the key `path`, an integer (or boolean) under `minReturn`, and the text of `f` under `for` - or
nothing (or `null`) there, and then the beneficiary is `s`. Of several values under one key the last counts. -/
def RequestText (py : Bool) (float : List Char → JVal) (n : Nat) (t : List Char) (s : Addr) (path : List Addr) (m : Int) (f : Addr) :
    Prop :=
  ∃ l p j, Document py float n l t ∧ lastOf "path".toList l = some (.str p) ∧ PathText p path ∧
    lastOf "minReturn".toList l = some j ∧ (j = .int m ∨ (j = .bool true ∧ m = 1) ∨ (j = .bool false ∧ m = 0)) ∧
    ((f = s ∧ (lastOf "for".toList l = none ∨ lastOf "for".toList l = some .null)) ∨
      lastOf "for".toList l = some (.str (Text.ofAddr f)))

/-- The bytes of a text. -/
def utf8 (t : List Char) : List UInt8 := t.flatMap String.utf8EncodeChar

end Verif.Json.Spec
