/-
  Sampled images (ISO 32000-1, 8.9.5) and what a user expects of their conversion.
-/
import Verif.Model.Image
import Verif.Spec.Fax

namespace PdfReader.Spec

/-- The device colour spaces by their names and abbreviations, with their components and Pillow's mode for them. -/
def deviceSpaces : List (Bytes × Nat × Bytes) :=
  [(b!"DeviceRGB", 3, b!"RGB"), (b!"RGB", 3, b!"RGB"), (b!"DeviceCMYK", 4, b!"CMYK"), (b!"CMYK", 4, b!"CMYK"), (b!"DeviceGray", 1, b!"L"), (b!"G", 1, b!"L")]

/-- The data of an image with `bits` bits for each of `comps` components: each row starts with a byte of its own. -/
def fullSize (width height comps bits : Nat) : Nat := height * ((width * comps * bits + 7) / 8)

/-- No filter which Pillow or the fax path would handle. -/
def PlainFilter : ImgFilter → Prop
  | .none => True
  | .one n => n ∉ [b!"DCTDecode", b!"JPXDecode", b!"CCITTFaxDecode"]
  | .many ns => ∃ n, ns.getLast? = some n ∧ n ∉ [b!"DCTDecode", b!"JPXDecode", b!"CCITTFaxDecode"]

/-- The last filter is the one for facsimile data. -/
def FaxFilter : ImgFilter → Prop
  | .none => False
  | .one n => n = b!"CCITTFaxDecode"
  | .many ns => ns.getLast? = some b!"CCITTFaxDecode"

/-- The samples of data: bits in groups, the high-order bit first; a rest at the end makes one more. -/
inductive Samples (bits : Nat) : List Bool → List Nat → Prop
  | nil : Samples bits [] []
  | last (g : List Bool) (v : Nat) : g ≠ [] → g.length < bits → (∀ i, v.testBit i = g.reverse.getD i false) → Samples bits g [v]
  | cons (g rest : List Bool) (v : Nat) (vs : List Nat) : g ≠ [] → g.length = bits → (∀ i, v.testBit i = g.reverse.getD i false) → Samples bits rest vs →
      Samples bits (g ++ rest) (v :: vs)

end PdfReader.Spec
