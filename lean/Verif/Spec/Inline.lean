/-
  Inline images (ISO 32000-1, 8.9.7): keys and names may be abbreviated.
-/
import Verif.Model.Viewer
import Verif.Spec.Image

namespace PdfReader.Spec

/-- Table 93: the keys of inline images and their abbreviations. -/
def inlineAbbreviations : List (Bytes × Bytes) :=
  [(b!"BitsPerComponent", b!"BPC"), (b!"ColorSpace", b!"CS"), (b!"Decode", b!"D"), (b!"DecodeParms", b!"DP"), (b!"Filter", b!"F"), (b!"Height", b!"H"), (b!"ImageMask", b!"IM"),
    (b!"Interpolate", b!"I"), (b!"Width", b!"W")]

/-- Table 94: the filters and their abbreviations. -/
def filterAbbreviations : List (Bytes × Bytes) :=
  [(b!"ASCIIHexDecode", b!"AHx"), (b!"ASCII85Decode", b!"A85"), (b!"LZWDecode", b!"LZW"), (b!"FlateDecode", b!"Fl"), (b!"RunLengthDecode", b!"RL"), (b!"CCITTFaxDecode", b!"CCF"),
    (b!"DCTDecode", b!"DCT")]

/-- The dictionary gives the key this value, by its name or its abbreviation. -/
def InlineEntry (d : List (Bytes × Obj)) (key : Bytes) (v : Obj) : Prop :=
  ∃ short, (key, short) ∈ inlineAbbreviations ∧ ((dictGet d key = some v ∧ dictGet d short = none) ∨ (dictGet d key = none ∧ dictGet d short = some v))

/-- The dictionary does not have the key. -/
def NoInlineEntry (d : List (Bytes × Obj)) (key : Bytes) : Prop := ∃ short, (key, short) ∈ inlineAbbreviations ∧ dictGet d key = none ∧ dictGet d short = none

/-- The filters of the image. -/
inductive InlineFilters (d : List (Bytes × Obj)) : List Bytes → Prop
  | none : NoInlineEntry d b!"Filter" → InlineFilters d []
  | one (n : Bytes) : n ≠ [] → InlineEntry d b!"Filter" (.name n) → InlineFilters d [n]
  | many (n : Bytes) (ns : List Bytes) : InlineEntry d b!"Filter" (.arr ((n :: ns).map .name)) → InlineFilters d (n :: ns)

/-- The parameters of the filters. -/
inductive InlineParms (d : List (Bytes × Obj)) : Option Obj → Prop
  | none : NoInlineEntry d b!"DecodeParms" → InlineParms d none
  | some (p : Obj) : InlineEntry d b!"DecodeParms" p → InlineParms d (some p)

/-- The full names of filters. -/
inductive FullNames : List Bytes → List Bytes → Prop
  | nil : FullNames [] []
  | short (full short : Bytes) (ns ms : List Bytes) : (full, short) ∈ filterAbbreviations → FullNames ns ms → FullNames (short :: ns) (full :: ms)
  | same (n : Bytes) (ns ms : List Bytes) : (∀ full, (full, n) ∉ filterAbbreviations) → FullNames ns ms → FullNames (n :: ns) (n :: ms)

/-- The image is no mask. -/
def NoInlineMask (d : List (Bytes × Obj)) : Prop := NoInlineEntry d b!"ImageMask" ∨ InlineEntry d b!"ImageMask" (.bool false)

/-- Width and Height, which are not 0. -/
def InlineSize (d : List (Bytes × Obj)) (w h : Nat) : Prop := 0 < w ∧ 0 < h ∧ InlineEntry d b!"Width" (.int w) ∧ InlineEntry d b!"Height" (.int h)

/-- The last filter is none for photographs or facsimiles. -/
def InlinePlain (ns : List Bytes) : Prop := ∀ n, ns.getLast? = some n → n ∉ [b!"DCTDecode", b!"DCT", b!"JPXDecode", b!"CCITTFaxDecode", b!"CCF"]

/-- The bytes of a table of colours. -/
inductive InlineTable : Obj → Bytes → Prop
  | str (t : Bytes) : InlineTable (.str t) t
  | hex (s t : Bytes) : hexBytes s = .ok t → InlineTable (.hex s) t

/-- What Pillow is to be given for an inline image: its samples of 8 bits in a device colour space, those and a palette, or the two colours of a mask or of a facsimile. Left out
are DeviceGray (C84), the abbreviations I, DCT and CCF, images of 0 size, and photographs. -/
inductive InlinePictured (filtered : List (Bytes × Obj) → Bytes → Res Bytes) (d : List (Bytes × Obj)) (data : Bytes) : Pil → Prop
  | device (w h : Nat) (ns : List Bytes) (n mode samples : Bytes) (k : Nat) : InlineSize d w h → InlineFilters d ns → InlinePlain ns → NoInlineMask d →
      InlineEntry d b!"BitsPerComponent" (.int 8) → InlineEntry d b!"ColorSpace" (.name n) → (n, k, mode) ∈ deviceSpaces → n ≠ b!"DeviceGray" →
      filtered d data = .ok samples → samples.length = w * h * k → InlinePictured filtered d data (.pixels mode w h samples)
  | indexed (w h : Nat) (ns : List Bytes) (n mode samples table : Bytes) (k : Nat) (hival : Int) (lookup : Obj) : InlineSize d w h → InlineFilters d ns → InlinePlain ns →
      NoInlineMask d → InlineEntry d b!"BitsPerComponent" (.int 8) → InlineEntry d b!"ColorSpace" (.arr [.name b!"Indexed", .name n, .int hival, lookup]) →
      InlineTable lookup table → (n, k, mode) ∈ deviceSpaces → n ≠ b!"DeviceGray" → filtered d data = .ok samples → InlinePictured filtered d data (.palette w h table mode samples)
  | mask (w h : Nat) (ns : List Bytes) (bits : Bytes) : InlineSize d w h → InlineFilters d ns → InlinePlain ns → InlineEntry d b!"ImageMask" (.bool true) →
      InlineEntry d b!"BitsPerComponent" (.int 1) → (NoInlineEntry d b!"Decode" ∨ InlineEntry d b!"Decode" (.arr [.int 0, .int 1])) → filtered d data = .ok bits →
      InlinePictured filtered d data (.pixels b!"1" w h bits)
  | inverted (w h : Nat) (ns : List Bytes) (bits : Bytes) : InlineSize d w h → InlineFilters d ns → InlinePlain ns → InlineEntry d b!"ImageMask" (.bool true) →
      InlineEntry d b!"BitsPerComponent" (.int 1) → InlineEntry d b!"Decode" (.arr [.int 1, .int 0]) → filtered d data = .ok bits →
      InlinePictured filtered d data (.pixels b!"1" w h (bits.map (~~~ ·)))
  | fax (w h : Nat) (ns : List Bytes) (bits : Bytes) : InlineSize d w h → InlineFilters d ns → ns.getLast? = some b!"CCITTFaxDecode" →
      InlineEntry d b!"BitsPerComponent" (.int 1) → (NoInlineEntry d b!"Decode" ∨ InlineEntry d b!"Decode" (.arr [.int 0, .int 1])) → filtered d data = .ok bits →
      InlinePictured filtered d data (.pixels b!"1" w h bits)

end PdfReader.Spec
