/-
  Inline images in the text of a canvas.
-/
import Verif.Spec.Filters
import Verif.Spec.Viewer

namespace PdfReader.Spec

/-- The digits of base 85 which Python's `base64.b85encode` uses (RFC 1924). -/
def letters85 : Bytes := b!"0123456789ABCDEFGHIJKLMNOPQRSTUVWXYZabcdefghijklmnopqrstuvwxyz!#$%&()*+-;<=>?@^_`{|}~"

/-- The letter of RFC 1924 for a letter `!`..`u` of ASCII85. -/
def relettered (c : Byte) : Byte := letters85.getD (c.toNat - 33) 0

/-- The letter of ASCII85 for a letter of RFC 1924. -/
def unlettered (c : Byte) : Byte := UInt8.ofNat (33 + letters85.idxOf c)

/-- A filter: nothing, a name, or an array of names. -/
inductive FilterForm : Option Obj → List Bytes → Prop
  | absent : FilterForm none []
  | null : FilterForm (some .null) []
  | name (n : Bytes) : n ≠ [] → FilterForm (some (.name n)) [n]
  | array (ns : List Bytes) : FilterForm (some (.arr (ns.map .name))) ns

/-- The filters of an inline image: those of Filter, or else those of F. -/
def ImageFilters (d : List (Bytes × Obj)) (fs : List Bytes) : Prop :=
  (FilterForm (dictGet d b!"Filter") fs ∧ fs ≠ []) ∨ (FilterForm (dictGet d b!"Filter") [] ∧ FilterForm (dictGet d b!"F") fs)

/-- The names of filters whose data are texts. -/
def textFilters : List Bytes := [b!"ASCIIHexDecode", b!"AHx", b!"ASCII85Decode", b!"A85"]

end PdfReader.Spec
