/-
  Images for Pillow, pdfreader/pillow.py, for image XObjects and inline images (types/content.py). Pillow itself is not modelled: the result
  says which of its functions is called, and with what.

  Simplifications: Decode has integers; of colour spaces, what the code looks at.
-/
import Verif.Model.Basic
import Verif.Model.Fax

namespace PdfReader

/-- The Filter of an image. -/
inductive ImgFilter where
  | none | one (n : Bytes) | many (ns : List Bytes)

/-- An element of a colour space array; `profile n` is an ICC profile with the entry N, `space n` an array `[/ICCBased profile]`. -/
inductive CsItem where
  | name (n : Bytes)
  | int (n : Int)
  | profile (n : Option Int)
  | space (n : Option Int)
  | stream (filtered : Res Bytes)
  | hex (bytes : Res Bytes)
  | str (s : Bytes)

/-- ColorSpace. -/
inductive ColorSpace where
  | none | name (n : Bytes) | arr (xs : List CsItem)

/-- The attributes of an image which `to_Pillow` reads. `inline` tells inline images, which have `data` but no `stream`. -/
structure ImageAttrs where
  inline : Bool := false
  width : Nat
  height : Nat
  filter : ImgFilter := .none
  mask : Bool := false
  bits : Option Nat := some 8
  decode : Option (List Nat) := none
  space : ColorSpace := .none
  raw : Bytes
  filtered : Res Bytes

/-- What Pillow is asked for: `Image.open`, `Image.frombytes`, or a palette image. -/
inductive Pil where
  | opened (data : Bytes)
  | pixels (mode : Bytes) (width height : Nat) (data : Bytes)
  | palette (width height : Nat) (lookup : Bytes) (mode : Bytes) (data : Bytes)
  deriving DecidableEq

/-- `int.from_bytes(...)` of a component: its bits, the first one highest. -/
def bitsValue (l : List Bool) : Nat := l.foldl (fun a b => 2 * a + b.toNat) 0

/-- The loop of `decoded` over the bits, pillow.py:19-24, without Decode. `fuel` is the number of bits. -/
def components (bpc : Nat) : Nat → List Bool → List Nat
  | 0, _ => []
  | _, [] => []
  | fuel + 1, b :: bs => bitsValue ((b :: bs).take bpc) :: components bpc fuel ((b :: bs).drop bpc)

/-- `self.Decode[index] if self.Decode else index`, pillow.py:26. -/
def decodeValue (decode : Option (List Nat)) (v : Nat) : Res Nat :=
  match decode with
  | some (d :: ds) => match (d :: ds)[v]? with | some x => .ok x | none => .error .indexError
  | _ => .ok v

/-- `[f(x) for x in xs]` -/
def imgMap {α β : Type} (f : α → Res β) : List α → Res (List β)
  | [] => .ok []
  | x :: xs => match f x with | .error e => .error e | .ok y => (imgMap f xs).map fun ys => y :: ys

/-- `decoded`, pillow.py:14-27. `range` refuses the step 0 with ValueError and None with TypeError. -/
def decodedImage (im : ImageAttrs) : Res (List Nat) :=
  match im.filtered with
  | .error e => .error e
  | .ok data =>
    match im.bits with
    | none => .error .typeError
    | some bpc =>
      if bpc = 0 then .error .valueError
      else imgMap (decodeValue im.decode) (components bpc (data.flatMap byteMasks).length (data.flatMap byteMasks))

/-- `get_pil_colorspace` for a name, pillow.py:44-52. -/
def pilNamed (n : Bytes) : Bytes :=
  if n ∈ [b!"DeviceRGB", b!"RGB", b!"CalRGB"] then b!"RGB"
  else if n ∈ [b!"DeviceCMYK", b!"CMYK", b!"CalCMYK"] then b!"CMYK"
  else if n ∈ [b!"DeviceGrey", b!"G", b!"CalGrey"] then b!"L"
  else b!"P"

/-- `get_pil_colorspace` for the base of an indexed colour space, pillow.py:29-53. -/
def pilItem : CsItem → Res Bytes
  | .name n => .ok (pilNamed n)
  | .space n =>
    if n = some 1 then .ok (pilNamed b!"DeviceGrey")
    else if n = some 3 then .ok (pilNamed b!"DeviceRGB")
    else if n = some 4 then .ok (pilNamed b!"DeviceCMYK")
    else .error .valueError
  | _ => .ok b!"P"

/-- `_recover_broken_image_if_necessary`, pillow.py:95-116; the modes are those of `get_pil_colorspace`. -/
def recoverImage (mode : Bytes) (width height : Nat) (raw : Bytes) : Res Bytes :=
  let n := width * height
  let size : Option Nat := if mode = b!"RGB" then some (n * 3) else if mode = b!"CMYK" then some (n * 4) else if mode = b!"L" ∨ mode = b!"P" then some n else none
  match size with
  | none => .error .typeError
  | some k => .ok (if k < raw.length then raw.take k else if raw.length < k then raw ++ List.replicate (k - raw.length) 0 else raw)

/-- The bytes of the lookup table, pillow.py:75-78. -/
def lookupBytes : CsItem → Res Bytes
  | .stream d => d
  | .hex d => d
  | .str s => .ok s
  | _ => .error .typeError

/-- `my_cs == 'Indexed'` -/
def isIndexed : CsItem → Bool
  | .name n => n == b!"Indexed"
  | _ => false

/-- Colour spaces given as arrays, pillow.py:71-86. An inline image has `data`; an image XObject has no entry of this name. -/
def arrayImage (im : ImageAttrs) (xs : List CsItem) : Res Pil :=
  match xs with
  | mine :: base :: _ :: lookup :: _ =>
    if isIndexed mine then
      match lookupBytes lookup, pilItem base, im.filtered with
      | .error e, _, _ => .error e
      | _, .error e, _ => .error e
      | _, _, .error e => .error e
      | .ok t, .ok m, .ok d => .ok (.palette im.width im.height t m d)
    else
      match pilItem base with
      | .error e => .error e
      | .ok m => if im.inline then .ok (.pixels m im.width im.height im.raw) else .error .typeError
  | _ => .error .indexError

/-- `filter`, pillow.py:60-63 -/
def lastFilter : ImgFilter → Res (Option Bytes)
  | .none => .ok none
  | .one n => .ok (some n)
  | .many ns => match ns.getLast? with | none => .error .indexError | some n => .ok (some n)

/-- `bitarray(values).tobytes()`: values other than 0 and 1 are refused. -/
def bitPixels (vs : List Nat) : Res Bytes :=
  if vs.all fun v => decide (v < 2) then .ok (packBits ((vs.length + 7) / 8) (vs.map fun v => v == 1)) else .error .valueError

/-- `to_Pillow`, pillow.py:55-93. -/
def toPillow (im : ImageAttrs) : Res Pil :=
  match lastFilter im.filter with
  | .error e => .error e
  | .ok f =>
    if f = some b!"DCTDecode" ∨ f = some b!"JPXDecode" then if im.inline then .error .attributeError else .ok (.opened im.raw)
    else if f = some b!"CCITTFaxDecode" ∨ im.mask = true then
      match decodedImage im with
      | .error e => .error e
      | .ok vs => (bitPixels vs).map fun d => .pixels b!"1" im.width im.height d
    else
      match im.space with
      | .arr xs => arrayImage im xs
      | .none =>
        match im.filtered with
        | .error e => .error e
        | .ok d => (recoverImage b!"P" im.width im.height d).map fun d => .pixels b!"P" im.width im.height d
      | .name n =>
        match im.filtered with
        | .error e => .error e
        | .ok d => (recoverImage (pilNamed n) im.width im.height d).map fun d => .pixels (pilNamed n) im.width im.height d

end PdfReader
