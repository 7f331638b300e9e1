/-
  Facsimile images in a file (ISO 32000-1, 7.4.6 and 8.9.5).
-/
import Verif.Spec.ImageFile
import Verif.Spec.Fax

namespace PdfReader.Spec

/-- A parameter which is true or false, false if it is left out. -/
def FlagIs (ps : List (Bytes × Obj)) (key : Bytes) (b : Bool) : Prop := dictGet ps key = some (.bool b) ∨ (b = false ∧ NoEntry ps key)

/-- The parameters of Group 4 data with lines of `w` pixels; K may be written as a real number. -/
structure Group4 (ps : List (Bytes × Obj)) (w : Nat) (align black : Bool) : Prop where
  k : dictGet ps b!"K" = some (.int (-1)) ∨ ∃ n : Nat, dictGet ps b!"K" = some (.real (-(10 ^ n : Nat)) (-n))
  columns : dictGet ps b!"Columns" = some (.int w)
  align : FlagIs ps b!"EncodedByteAlign" align
  black : FlagIs ps b!"BlackIs1" black

/-- A stream of a facsimile: its one filter, by its name or its abbreviation, and the parameters for it. -/
structure FaxStream (d : List (Bytes × Obj)) (w : Nat) (align black : Bool) : Prop where
  filter : ∃ n ∈ [b!"CCITTFaxDecode", b!"CCF"], dictGet d b!"Filter" = some (.name n) ∨ dictGet d b!"Filter" = some (.arr [.name n])
  parms : ∃ ps, dictGet d b!"DecodeParms" = some (.dict ps) ∧ Group4 ps w align black

/-- An image XObject with the lines `rows` of `w` pixels. (The abbreviation of the filter is for inline images only.) -/
structure FaxImage (store : Store) (d : List (Bytes × Obj)) (w h : Nat) (align black : Bool) : Prop where
  stream : FaxStream d w align black
  name : dictGet d b!"Filter" = some (.name b!"CCITTFaxDecode") ∨ dictGet d b!"Filter" = some (.arr [.name b!"CCITTFaxDecode"])
  size : SizeIs store d w h
  bits : EntryIs store d b!"BitsPerComponent" (.atom (.int 1))
  decode : AsWritten store d

end PdfReader.Spec
