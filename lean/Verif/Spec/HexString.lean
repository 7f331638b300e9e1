/-
  How byte strings are written in hexadecimal: two digits for each byte, in either case, with blanks anywhere; a last digit 0 may be left out.
-/
import Verif.Spec.Grammar
import Verif.Spec.CMap

namespace PdfReader.Spec

/-- `t`, between `<` and `>`, says the bytes `s`. -/
def HexWritten (s t : Bytes) : Prop := ∃ d, HexText d t ∧ (d = s.flatMap hexPair ∨ d ++ [48] = s.flatMap hexPair)

/-- The number whose digits to the base 256 are the bytes, most significant first. -/
def number256 : Bytes → Nat
  | [] => 0
  | b :: s => b.toNat * 256 ^ s.length + number256 s

end PdfReader.Spec
