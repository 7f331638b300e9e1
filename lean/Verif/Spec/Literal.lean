/-
  Literal strings in the full syntax of ISO 32000-1, 7.3.4.2, for C57. `StrText` of Spec/Grammar has the same rules without the last four.
-/
import Verif.Spec.Grammar

namespace PdfReader.Spec

/-- The byte of a three-digit octal code: "high-order overflow shall be ignored". -/
def octalByte (x y z : Byte) : Byte := UInt8.ofNat ((x.toNat - 48) * 64 + (y.toNat - 48) * 8 + (z.toNat - 48))

/-- `t`, between the parentheses, is written for the string `v`. -/
inductive LitText : Bytes → Bytes → Prop
  | nil : LitText [] []
  | plain (c : Byte) (v t : Bytes) : c ≠ 40 → c ≠ 41 → c ≠ 92 → c ≠ 13 → LitText v t → LitText (c :: v) (c :: t)
  | paren (v t v' t' : Bytes) : LitText v t → LitText v' t' → LitText (40 :: (v ++ 41 :: v')) (40 :: (t ++ 41 :: t'))
  | named (l b : Byte) (v t : Bytes) : (l, b) ∈ namedEscapes → LitText v t → LitText (b :: v) (92 :: l :: t)
  | oct1 (b x : Byte) (v t : Bytes) : OctDigit b.toNat x → NotStart (fun c => ∃ k, OctDigit k c) t → LitText v t → LitText (b :: v) (92 :: x :: t)
  | oct2 (b x y : Byte) (v t : Bytes) : OctDigit (b.toNat / 8) x → OctDigit (b.toNat % 8) y → NotStart (fun c => ∃ k, OctDigit k c) t → LitText v t →
      LitText (b :: v) (92 :: x :: y :: t)
  | oct3 (x y z : Byte) (v t : Bytes) : (∃ k, OctDigit k x) → (∃ k, OctDigit k y) → (∃ k, OctDigit k z) → LitText v t →
      LitText (octalByte x y z :: v) (92 :: x :: y :: z :: t)
  | contLF (v t : Bytes) : LitText v t → LitText v (92 :: 10 :: t)
  | contCRLF (v t : Bytes) : LitText v t → LitText v (92 :: 13 :: 10 :: t)
  | contCR (v t : Bytes) : NotStart (· = 10) t → LitText v t → LitText v (92 :: 13 :: t)
  /-- an end of line "that is not preceded by a REVERSE SOLIDUS" is one LF -/
  | rawCR (v t : Bytes) : NotStart (· = 10) t → LitText v t → LitText (10 :: v) (13 :: t)
  | rawCRLF (v t : Bytes) : LitText v t → LitText (10 :: v) (13 :: 10 :: t)
  /-- "if the character following the REVERSE SOLIDUS is not one of those shown, the REVERSE SOLIDUS shall be ignored" -/
  | unknown (c : Byte) (v t : Bytes) : (∀ b, (c, b) ∉ namedEscapes) → (¬ ∃ k, OctDigit k c) → c ≠ 10 → c ≠ 13 → LitText v t →
      LitText (c :: v) (92 :: c :: t)

/-- `w` is `v`, but some line feeds are the ends of line they were written as, some bytes have a backslash before them, and some are the backslash
and the three digits of an octal code above 377. -/
inductive Loose : Bytes → Bytes → Prop
  | nil : Loose [] []
  | same (c : Byte) (v w : Bytes) : Loose v w → Loose (c :: v) (c :: w)
  | cr (v w : Bytes) : Loose v w → Loose (10 :: v) (13 :: w)
  | crlf (v w : Bytes) : Loose v w → Loose (10 :: v) (13 :: 10 :: w)
  | backslash (c : Byte) (v w : Bytes) : Loose v w → Loose (c :: v) (92 :: c :: w)
  | octal (x y z : Byte) (v w : Bytes) : 52 ≤ x.toNat → Loose v w → Loose (octalByte x y z :: v) (92 :: x :: y :: z :: w)

end PdfReader.Spec
