import Verif.Model.Base
/-!
Addresses and their text form, and the reading of conversion path strings.

`Address` and `Address.from_string` belong to the ICON platform (package `iconservice`), not to `/repo`; what is modelled
here is their documented behaviour: an address is a prefix (`hx` ordinary account, `cx` contract) and 20 bytes; its text
is the prefix and 40 lower-case hexadecimal digits; `from_string` accepts exactly such texts and raises otherwise.
Text is a list of Unicode characters (Python `str`).
-/
namespace Verif

/-- An ICON address (platform type `Address`, used throughout contracts/). `isContract` is the platform's
`Address.is_contract` (used in irc_token.py:105, score_registry.py:57). -/
structure Addr where
  isContract : Bool
  body : BitVec 160
  deriving DecidableEq, Repr

/-- `ZERO_SCORE_ADDRESS` of the platform: `cx` followed by 40 zeros (used in utils.py:45, owned.py:36, network.py:266). -/
def ZERO : Addr := ⟨true, 0⟩

/-- `is_valid_address`, utils.py:44-45. `none` is Python's `None`. -/
def isValidAddress (a : Option Addr) : Bool := a ≠ none && a ≠ some ZERO

namespace Text

/-- Lower-case hexadecimal digit of `d < 16` (platform: `bytes.hex()`). -/
def hexChar (d : Nat) : Char := "0123456789abcdef".toList.getD d '0'

/-- Value of a lower-case hexadecimal digit (platform: `bytes.fromhex` restricted to lower case). -/
def hexVal (c : Char) : Option Nat :=
  let i := "0123456789abcdef".toList.idxOf c
  if i < 16 then some i else none

/-- The `k` lowest hexadecimal digits of `n`, most significant first. -/
def hexDigits : Nat → Nat → List Char
  | 0, _ => []
  | k + 1, n => hexDigits k (n / 16) ++ [hexChar (n % 16)]

/-- Reads a string of hexadecimal digits, most significant first. -/
def readHex : Nat → List Char → Option Nat
  | acc, [] => some acc
  | acc, c :: cs => match hexVal c with
    | none => none
    | some d => readHex (acc * 16 + d) cs

/-- `str(address)` (platform; used in network.py:280). -/
def ofAddr (a : Addr) : List Char :=
  (if a.isContract then ['c', 'x'] else ['h', 'x']) ++ hexDigits 40 a.body.toNat

/-- `Address.from_string` (platform; used in network.py:89,120, converter.py:246): `none` models the exception. -/
def toAddr (s : List Char) : Option Addr :=
  match s with
  | p :: x :: ds =>
    if x = 'x' ∧ (p = 'c' ∨ p = 'h') ∧ ds.length = 40 then
      match readHex 0 ds with
      | none => none
      | some n => some ⟨p = 'c', BitVec.ofNat 160 n⟩
    else none
  | _ => none

/-- Python's `str.split(",")` (platform; used in network.py:88): always at least one piece. -/
def splitComma : List Char → List (List Char)
  | [] => [[]]
  | c :: cs =>
    if c = ',' then [] :: splitComma cs
    else match splitComma cs with
      | [] => [[c]]
      | p :: ps => (c :: p) :: ps

/-- The characters Python's `str.strip()` removes: Unicode white space (`str.isspace`). -/
def isSpace (c : Char) : Bool :=
  let n := c.toNat
  (9 ≤ n && n ≤ 13) || (28 ≤ n && n ≤ 32) || n = 0x85 || n = 0xa0 || n = 0x1680 || (0x2000 ≤ n && n ≤ 0x200a) ||
  n = 0x2028 || n = 0x2029 || n = 0x202f || n = 0x205f || n = 0x3000

/-- Python's `str.strip()` (used in network.py:88). -/
def strip (s : List Char) : List Char :=
  ((s.dropWhile isSpace).reverse.dropWhile isSpace).reverse

/-- `[Address.from_string(x) for x in xs]`, network.py:89: fails if any element fails. -/
def toAddrs : List (List Char) → Option (List Addr)
  | [] => some []
  | s :: ss => match toAddr s with
    | none => none
    | some a => match toAddrs ss with
      | none => none
      | some as => some (a :: as)

/-- `_convert_path`, network.py:86-89. -/
def convertPath (path : List Char) : Option (List Addr) :=
  toAddrs ((splitComma path).map strip)

end Text
end Verif
