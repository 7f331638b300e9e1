/-
  Inline images as a user has them on the canvas: pdfreader/types/content.py:15-73 (`InlineImage`) with pdfreader/pillow.py.

  Simplifications: those of `Model/StreamData.lean` for filters and parameters, and of `Model/ViewImage.lean` for the attributes of the image; a colour space array has names,
  integers and strings, others raise TypeError.
-/
import Verif.Model.ViewImage
import Verif.Model.Viewer
import Verif.Model.FaxFilter

namespace PdfReader

/-- The attributes which have an abbreviation, types/content.py:32-70. -/
def inlineKeys : List (Bytes × Bytes) :=
  [(b!"Filter", b!"F"), (b!"Width", b!"W"), (b!"Height", b!"H"), (b!"ColorSpace", b!"CS"), (b!"BitsPerComponent", b!"BPC"), (b!"Decode", b!"D"), (b!"DecodeParms", b!"DP"),
    (b!"Interpolate", b!"I"), (b!"ImageMask", b!"IM")]

/-- `image.Width` and the like; `Intent` has no abbreviation, types/content.py:60-62. -/
def inlineAttr (d : List (Bytes × Obj)) (name : Bytes) : Obj :=
  match inlineKeys.find? fun k => k.1 == name with
  | some (long, short) => imageEntry d long short
  | none => (dictGet d name).getD .null

/-- `image.filtered`, types/content.py:72-75 -/
def inlineFiltered (inflate : Bytes → Option Bytes) (d : List (Bytes × Obj)) (data : Bytes) : Res Bytes :=
  applyFilterMulti { inflate := inflate, ccitt := fun b _ => ccittFilter (some (inlineAttr d b!"DecodeParms")) b, dct := fun _ => .error .typeError }
    (filterEntry (some (inlineAttr d b!"Filter"))) data (paramsEntry (some (inlineAttr d b!"DecodeParms")))

/-- A value of the dictionary as a value of a document. -/
def plainVal : Obj → Val
  | .arr xs => .arr (xs.map fun x => .atom x)
  | o => .atom o

/-- `self.ColorSpace`, pillow.py:71-78, 88: names, and arrays of names, numbers and strings. -/
def inlineSpace : Obj → Res ColorSpace
  | .null => .ok .none
  | .name n => .ok (.name n)
  | .arr xs => (imgMap (fun x => match x with
      | .name n => .ok (.name n)
      | .int n => .ok (.int n)
      | .str s => .ok (.str s)
      | .hex s => .ok (.hex (hexBytes s))
      | _ => .error .typeError) xs).map .arr
  | _ => .error .typeError

/-- What `to_Pillow` reads of an inline image, in the order in which it reads it, pillow.py:60-91. Attributes which are not read on the way taken have the values of
`ImageAttrs`. -/
def inlineAttrs (inflate : Bytes → Option Bytes) (d : List (Bytes × Obj)) (data : Bytes) : Res ImageAttrs :=
  (natVal (plainVal (inlineAttr d b!"Width"))).bind fun w =>
  (natVal (plainVal (inlineAttr d b!"Height"))).bind fun h =>
  (filterVal (plainVal (inlineAttr d b!"Filter"))).bind fun f =>
  (lastFilter f).bind fun last =>
    if last = some b!"DCTDecode" ∨ last = some b!"JPXDecode" then
      .ok { inline := true, width := w, height := h, filter := f, raw := data, filtered := inlineFiltered inflate d data }
    else if last = some b!"CCITTFaxDecode" ∨ truthy (inlineAttr d b!"ImageMask") = true then
      (bitsVal (plainVal (inlineAttr d b!"BitsPerComponent"))).bind fun b =>
      (decodeVal (plainVal (inlineAttr d b!"Decode"))).bind fun dec =>
        .ok { inline := true, width := w, height := h, filter := f, mask := truthy (inlineAttr d b!"ImageMask"), bits := b, decode := dec, raw := data,
              filtered := inlineFiltered inflate d data }
    else
      (inlineSpace (inlineAttr d b!"ColorSpace")).bind fun c =>
        .ok { inline := true, width := w, height := h, filter := f, space := c, raw := data, filtered := inlineFiltered inflate d data }

/-- `image.to_Pillow()`, pillow.py:55-93, for an inline image of the canvas. -/
def inlinePillow (inflate : Bytes → Option Bytes) : Content → Res Pil
  | .image d data => (inlineAttrs inflate d data).bind toPillow
  | .op _ _ => .error .attributeError

end PdfReader
