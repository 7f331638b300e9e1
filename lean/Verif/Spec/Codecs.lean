/-
  Specification of the simple text encodings: the Latin character encodings of ISO 32000-1, Annex D.2, and encodings with
  differences (9.6.6.1).
-/
import Verif.Spec.CMap
import Verif.Model.Object
import Verif.Model.Glyphs

namespace PdfReader

/-- The entries of a tree. -/
def GlyphTree.toList : GlyphTree → List (Nat × List Nat)
  | .nil => []
  | .node l k v r => l.toList ++ (k, v) :: r.toList

end PdfReader

namespace PdfReader.Spec

/-- Codes of a row of characters, from `start` on. -/
def row (start : Nat) (cs : List Nat) (b : Nat) : Option Nat := if start ≤ b then cs[b - start]? else none

/-- WinAnsiEncoding (code page 1252); `none`: no character is assigned. -/
def winAnsiChar (b : Nat) : Option Nat :=
  if 0x80 ≤ b ∧ b ≤ 0x9F then
    (row 0x80 [0x20AC, 0, 0x201A, 0x0192, 0x201E, 0x2026, 0x2020, 0x2021, 0x02C6, 0x2030, 0x0160, 0x2039, 0x0152, 0, 0x017D, 0,
      0, 0x2018, 0x2019, 0x201C, 0x201D, 0x2022, 0x2013, 0x2014, 0x02DC, 0x2122, 0x0161, 0x203A, 0x0153, 0, 0x017E, 0x0178] b).filter (· ≠ 0)
  else if 0x20 ≤ b ∧ b ≤ 0xFF ∧ b ≠ 0x7F then some b
  else none

/-- PDFDocEncoding. -/
def pdfDocChar (b : Nat) : Option Nat :=
  if 0x18 ≤ b ∧ b ≤ 0x1F then row 0x18 [0x02D8, 0x02C7, 0x02C6, 0x02D9, 0x02DD, 0x02DB, 0x02DA, 0x02DC] b
  else if 0x80 ≤ b ∧ b ≤ 0xA0 then
    (row 0x80 [0x2022, 0x2020, 0x2021, 0x2026, 0x2014, 0x2013, 0x0192, 0x2044, 0x2039, 0x203A, 0x2212, 0x2030, 0x201E, 0x201C, 0x201D, 0x2018,
      0x2019, 0x201A, 0x2122, 0xFB01, 0xFB02, 0x0141, 0x0152, 0x0160, 0x0178, 0x017D, 0x0131, 0x0142, 0x0153, 0x0161, 0x017E, 0, 0x20AC] b).filter (· ≠ 0)
  else if 0x20 ≤ b ∧ b ≤ 0xFF ∧ b ≠ 0x7F ∧ b ≠ 0xAD then some b
  else none

/-- StandardEncoding. -/
def standardChar (b : Nat) : Option Nat :=
  if b = 0x27 then some 0x2019
  else if b = 0x60 then some 0x2018
  else if 0x20 ≤ b ∧ b ≤ 0x7E then some b
  else
    (row 0xA1 [0x00A1, 0x00A2, 0x00A3, 0x2044, 0x00A5, 0x0192, 0x00A7, 0x00A4, 0x0027, 0x201C, 0x00AB, 0x2039, 0x203A, 0xFB01, 0xFB02,
      0, 0x2013, 0x2020, 0x2021, 0x00B7, 0, 0x00B6, 0x2022, 0x201A, 0x201E, 0x201D, 0x00BB, 0x2026, 0x2030, 0, 0x00BF,
      0, 0x0060, 0x00B4, 0x02C6, 0x02DC, 0x00AF, 0x02D8, 0x02D9, 0x00A8, 0, 0x02DA, 0x00B8, 0, 0x02DD, 0x02DB, 0x02C7,
      0x2014, 0, 0, 0, 0, 0, 0, 0, 0, 0, 0, 0, 0, 0, 0, 0,
      0, 0x00C6, 0, 0x00AA, 0, 0, 0, 0, 0x0141, 0x00D8, 0x0152, 0x00BA, 0, 0, 0, 0,
      0, 0x00E6, 0, 0, 0, 0x0131, 0, 0, 0x0142, 0x00F8, 0x0153, 0x00DF] b).filter (· ≠ 0)

/-- MacRomanEncoding. -/
def macRomanChar (b : Nat) : Option Nat :=
  if 0x20 ≤ b ∧ b ≤ 0x7E then some b
  else
    (row 0x80 [0x00C4, 0x00C5, 0x00C7, 0x00C9, 0x00D1, 0x00D6, 0x00DC, 0x00E1, 0x00E0, 0x00E2, 0x00E4, 0x00E3, 0x00E5, 0x00E7, 0x00E9, 0x00E8,
      0x00EA, 0x00EB, 0x00ED, 0x00EC, 0x00EE, 0x00EF, 0x00F1, 0x00F3, 0x00F2, 0x00F4, 0x00F6, 0x00F5, 0x00FA, 0x00F9, 0x00FB, 0x00FC,
      0x2020, 0x00B0, 0x00A2, 0x00A3, 0x00A7, 0x2022, 0x00B6, 0x00DF, 0x00AE, 0x00A9, 0x2122, 0x00B4, 0x00A8, 0, 0x00C6, 0x00D8,
      0, 0x00B1, 0, 0, 0x00A5, 0x00B5, 0, 0, 0, 0, 0, 0x00AA, 0x00BA, 0, 0x00E6, 0x00F8,
      0x00BF, 0x00A1, 0x00AC, 0, 0x0192, 0, 0, 0x00AB, 0x00BB, 0x2026, 0x00A0, 0x00C0, 0x00C3, 0x00D5, 0x0152, 0x0153,
      0x2013, 0x2014, 0x201C, 0x201D, 0x2018, 0x2019, 0x00F7, 0, 0x00FF, 0x0178, 0x2044, 0x00A4, 0x2039, 0x203A, 0xFB01, 0xFB02,
      0x2021, 0x00B7, 0x201A, 0x201E, 0x2030, 0x00C2, 0x00CA, 0x00C1, 0x00CB, 0x00C8, 0x00CD, 0x00CE, 0x00CF, 0x00CC, 0x00D3, 0x00D4,
      0, 0x00D2, 0x00DA, 0x00DB, 0x00D9, 0x0131, 0x02C6, 0x02DC, 0x00AF, 0x02D8, 0x02D9, 0x02DA, 0x00B8, 0x02DD, 0x02DB, 0x02C7] b).filter (· ≠ 0)

/-- A run of a Differences array: the first code and the names. -/
structure DiffRun where
  start : Int
  names : List Bytes

/-- The elements of a Differences array. -/
def diffArray (runs : List DiffRun) : List Obj := runs.flatMap (fun r => .int r.start :: r.names.map .name)

/-- The name a run gives to code `c`. -/
def DiffRun.get (r : DiffRun) (c : Int) : Option Bytes := if r.start ≤ c then r.names[(c - r.start).toNat]? else none

/-- The name a Differences array gives to code `c`: that of the last run which has the code. -/
def diffName (runs : List DiffRun) (c : Int) : Option Bytes := runs.reverse.findSome? (fun r => r.get c)

/-- A text is written in an encoding by these bytes: each byte has a character. -/
def Writes (char : Nat → Option Nat) : Bytes → Text → Prop
  | [], t => t = []
  | b :: s, t => ∃ x u, t = x :: u ∧ char b.toNat = some x ∧ Writes char s u

/-- The text of a string in an encoding; codes to which no character is assigned stand for the character of the same code. -/
def charsOf (char : Nat → Option Nat) (s : Bytes) : Text := s.map (fun b => (char b.toNat).getD b.toNat)

/-- The names of the built-in encodings and their tables. -/
def tableOf (name : Bytes) : Option (Nat → Option Nat) :=
  if name = b!"WinAnsiEncoding" then some winAnsiChar
  else if name = b!"PDFDocEncoding" then some pdfDocChar
  else if name = b!"MacRomanEncoding" then some macRomanChar
  else if name = b!"StandardEncoding" then some standardChar
  else none

/-- The parts of a name joined by underscores. -/
def joinUnderscore : List Bytes → Bytes
  | [] => []
  | [p] => p
  | p :: ps => p ++ 95 :: joinUnderscore ps

end PdfReader.Spec
