/-
  Common vocabulary of the model: bytes, byte strings, Python exceptions as values.
-/
import Lean

namespace PdfReader

/-- A byte. Python `bytes` objects are modelled as `List Byte`. -/
abbrev Byte := UInt8

/-- A Python `bytes` value. -/
abbrev Bytes := List Byte

/-- Python exceptions the modelled code can raise (exceptions as values).
`parser` = pdfreader/exceptions.py:1-11 `ParserException`; the others are Python built-ins.
`diverges` stands for "the modelled recursion ran out of fuel": a finite fuel never being enough
means that the Python code does not terminate (or ends in RecursionError). `recursion` is
`BruteForceRecursion` (parsers/document.py:11). `need n g` is no Python exception: it tells the model of the
registry (Model/Locate.lean) that the object with this number is needed for an indirect `Length`. -/
inductive Exc where
  | parser | typeError | valueError | keyError | indexError | attributeError
  | notImplemented | assertion | osError | unboundLocal | pageDoesNotExist | diverges
  | recursion | need (num gen : Nat)
  deriving DecidableEq, Repr

deriving instance DecidableEq for Except

/-- The outcome of a Python call. -/
abbrev Res (α : Type) := Except Exc α

/-- `b!"text"` is the list of the (ASCII) bytes of a string literal, expanded at elaboration time. -/
syntax:max (name := bytesLit) "b!" noWs str : term

open Lean in
macro_rules
  | `(b!$s:str) => do
    let bs := s.getString.toList.map (fun c => c.toNat)
    let elems : Array (TSyntax `term) := (bs.map (fun n => Syntax.mkNumLit (toString n))).toArray
    `(([$elems,*] : List UInt8))

/-- White-space bytes: pdfreader/constants.py:11 `WHITESPACES` = NUL TAB LF FF CR SP. -/
def isWs (c : Byte) : Bool :=
  c == 0 || c == 9 || c == 10 || c == 12 || c == 13 || c == 32

/-- Delimiter bytes: pdfreader/constants.py:10 `DELIMITERS`. -/
def isDelim (c : Byte) : Bool :=
  c == 40 || c == 41 || c == 60 || c == 62 || c == 91 || c == 93 || c == 123 || c == 125 ||
  c == 47 || c == 37

/-- ASCII digits `0`-`9` (`b'0123456789'` in the sources). -/
def isDigit (c : Byte) : Bool := decide (48 ≤ c.toNat ∧ c.toNat ≤ 57)

/-- Value of an ASCII hexadecimal digit of either case (`int(x, 16)`, `bytes.fromhex`). -/
def hexVal? (c : Byte) : Option Nat :=
  let n := c.toNat
  if 48 ≤ n ∧ n ≤ 57 then some (n - 48)
  else if 65 ≤ n ∧ n ≤ 70 then some (n - 55)
  else if 97 ≤ n ∧ n ≤ 102 then some (n - 87)
  else none

/-- Lower case hexadecimal digit of `n < 16`. -/
def hexDigitLo (n : Nat) : Byte := UInt8.ofNat (if n < 10 then 48 + n else 87 + n)
/-- Upper case hexadecimal digit of `n < 16`. -/
def hexDigitUp (n : Nat) : Byte := UInt8.ofNat (if n < 10 then 48 + n else 55 + n)

end PdfReader
