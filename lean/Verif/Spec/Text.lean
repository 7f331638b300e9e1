/-
  What a string means in a font: ToUnicode, encodings with differences, WinAnsiEncoding and Latin-1.
-/
import Verif.Spec.CMap
import Verif.Spec.Codecs
import Verif.Model.Codecs

namespace PdfReader.Spec

/-- The bytes of a string: those of a literal string, and those which the digits of a hexadecimal string write. -/
inductive BytesAre : Obj → Bytes → Prop
  | str (s : Bytes) : BytesAre (.str s) s
  | hex (s : Bytes) : BytesAre (.hex (s.flatMap hexPair)) s

/-- A component of a glyph name: in the Adobe Glyph List, or spelled by the codes of its characters. -/
inductive GlyphPart : Bytes → Text → Prop
  | listed (n : Bytes) (t : Text) : (nameKey n, t) ∈ aglTree.toList → (∀ w, (nameKey n, w) ∉ zapfTree.toList) → GlyphPart n t
  | uni (gs : List Bytes) : (∀ g ∈ gs, g.length = 4 ∧ UpHex g) → GlyphPart (b!"uni" ++ gs.flatten) (gs.map hexValue)
  | u (h : Bytes) : 4 ≤ h.length → h.length ≤ 6 → UpHex h → hexValue h ≤ 0x10FFFF → GlyphPart (b!"u" ++ h) [hexValue h]

/-- A glyph name: components joined by underscores, perhaps with a suffix after a dot. -/
inductive Glyph : Bytes → Text → Prop
  | mk (ps : List (Bytes × Text)) (suffix : Bytes) : ps ≠ [] → (∀ p ∈ ps, 95 ∉ p.1 ∧ 46 ∉ p.1 ∧ GlyphPart p.1 p.2) →
      suffix = [] ∨ suffix.head? = some 46 → Glyph (joinUnderscore (ps.map (·.1)) ++ suffix) (ps.flatMap (·.2))

/-- An entry which is absent or null. -/
def Missing (d : List (Bytes × Obj)) (k : Bytes) : Prop := dictGet d k = none ∨ dictGet d k = some .null

/-- The characters of the base encoding of an encoding dictionary: StandardEncoding, if it names none which is known. -/
def BaseChars (d : List (Bytes × Obj)) (char : Nat → Option Nat) : Prop :=
  (∃ n, dictGet d b!"BaseEncoding" = some (.name n) ∧ (tableOf n).getD standardChar = char) ∨ (Missing d b!"BaseEncoding" ∧ standardChar = char)

/-- The Differences of an encoding dictionary. -/
def Differs (d : List (Bytes × Obj)) (runs : List DiffRun) : Prop :=
  dictGet d b!"Differences" = some (.arr (diffArray runs)) ∨ (Missing d b!"Differences" ∧ runs = [])

/-- The standard 14 fonts, but for Helvetica-Oblique (C65). -/
def standardFonts : List Bytes :=
  [b!"Times-Roman", b!"Helvetica", b!"Courier", b!"Symbol", b!"Times-Bold", b!"Helvetica-Bold", b!"Courier-Bold", b!"Times-Italic",
   b!"Courier-Oblique", b!"Times-BoldItalic", b!"Helvetica-BoldOblique", b!"Courier-BoldOblique", b!"ZapfDingbats"]

/-- The meaning of a string in a font. Bytes which the tables of the code have wrong (C66) are left out, and so are named encodings other than
WinAnsiEncoding (C40). `builtin` are the encodings of Python, and `predefined` the predefined CMaps; they do not interfere. -/
inductive Means (builtin : Builtin) (predefined : Bytes → Option CMap) (fd : FontDict) (o : Obj) : Text → Prop
  | toUnicode (t : Bytes) (n : Nat) (bs : List Block) (s : Bytes) (segs : List (Bytes × Text)) : fd.toUnicode = some t → CMapText n bs t →
      (∀ b ∈ bs, b.Ok) → BytesAre o s → Segments (lookup b!"bf" bs) segs → s.flatMap hexPair = segs.flatMap (·.1) →
      Means builtin predefined fd o (segs.flatMap (·.2))
  | winAnsi (s : Bytes) : fd.toUnicode = none → fd.encoding = some (.name b!"WinAnsiEncoding") → predefined b!"WinAnsiEncoding" = none →
      builtin b!"WinAnsiEncoding" = none → BytesAre o s → (∀ b ∈ s, b.toNat ≠ 0xA4) → Means builtin predefined fd o (charsOf winAnsiChar s)
  | dict (d : List (Bytes × Obj)) (char : Nat → Option Nat) (runs : List DiffRun) (s : Bytes) (text : Byte → Text) : fd.toUnicode = none →
      fd.encoding = some (.dict d) → d ≠ [] → BaseChars d char → Differs d runs → BytesAre o s →
      (∀ b ∈ s, ∀ n, diffName runs (b.toNat : Int) = some n → Glyph n (text b)) →
      (∀ b ∈ s, diffName runs (b.toNat : Int) = none → b.toNat ∉ [0xA4, 0xA8, 0xB7, 0xDB] ∧ text b = [(char b.toNat).getD b.toNat]) →
      Means builtin predefined fd o (s.flatMap text)
  | standardFont (n s : Bytes) : fd.toUnicode = none → fd.encoding = none → fd.baseFont = some n → n ∈ standardFonts → builtin b!"Identity-H" = none →
      BytesAre o s → (∀ b ∈ s, b.toNat ≠ 0xA4) → Means builtin predefined fd o (charsOf winAnsiChar s)
  | nothing (s : Bytes) : fd.toUnicode = none → fd.encoding = none → (∀ n ∈ b!"Helvetica-Qblique" :: standardFonts, fd.baseFont ≠ some n) →
      BytesAre o s → Means builtin predefined fd o (s.map (·.toNat))

end PdfReader.Spec
