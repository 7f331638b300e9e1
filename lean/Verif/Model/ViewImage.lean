/-
  Images of a document for Pillow: how the attributes which `to_Pillow` reads come from the dictionary of an image XObject.
  pdfreader/pillow.py, types/objects.py.

  Simplifications: Width and Height are non-negative integers, as Decode has; of the elements of a colour space array, names, integers, strings
  and streams, and arrays [/ICCBased profile].
-/
import Verif.Model.View
import Verif.Model.Image

namespace PdfReader

/-- `self.Width`, pillow.py:60 -/
def natVal : Val → Res Nat
  | .atom (.int n) => if 0 ≤ n then .ok n.toNat else .error .valueError
  | _ => .error .typeError

/-- The names of an array. -/
def nameVals : List Val → Res (List Bytes)
  | [] => .ok []
  | .atom (.name n) :: vs => (nameVals vs).map fun ns => n :: ns
  | _ => .error .typeError

/-- `self.Filter`, pillow.py:61-63 -/
def filterVal : Val → Res ImgFilter
  | .atom .null => .ok .none
  | .atom (.name n) => .ok (.one n)
  | .arr vs => (nameVals vs).map .many
  | _ => .error .typeError

/-- `self.BitsPerComponent`, pillow.py:19 -/
def bitsVal : Val → Res (Option Nat)
  | .atom .null => .ok none
  | v => (natVal v).map some

/-- The elements of Decode. -/
def natVals : List Val → Res (List Nat)
  | [] => .ok []
  | v :: vs => match natVal v with | .error e => .error e | .ok n => (natVals vs).map fun ns => n :: ns

/-- `self.Decode`, pillow.py:26 -/
def decodeVal : Val → Res (Option (List Nat))
  | .atom .null => .ok none
  | .arr vs => (natVals vs).map some
  | _ => .error .typeError

section
variable {σ : Type} (filtered : List (Bytes × Obj) → Bytes → Res Bytes) (loc : Locator σ) (fuel : Nat)

/-- `icc_profile.N`, pillow.py:34-42 -/
def profileN (v : Val) : DM σ (Option Int) :=
  (attr loc fuel v b!"N").bind fun n => DM.pure (match n with | .atom (.int k) => .ok (some k) | _ => .ok none)

/-- An element of a colour space array, pillow.py:73-78: `lookup.filtered`, `lookup.to_bytes()`. -/
def csItem : Val → DM σ CsItem
  | .atom (.name n) => DM.pure (.ok (.name n))
  | .atom (.int n) => DM.pure (.ok (.int n))
  | .atom (.str s) => DM.pure (.ok (.str s))
  | .atom (.hex s) => DM.pure (.ok (.hex (hexBytes s)))
  | .stream _ d raw => DM.pure (.ok (.stream (filtered d raw)))
  | .arr [.atom (.name n), p] => if n = b!"ICCBased" then (profileN loc fuel p).bind fun k => DM.pure (.ok (.space k)) else DM.pure (.error .typeError)
  | _ => DM.pure (.error .typeError)

/-- `self.ColorSpace`, pillow.py:71-73, 88 -/
def spaceVal : Val → DM σ ColorSpace
  | .atom .null => DM.pure (.ok .none)
  | .atom (.name n) => DM.pure (.ok (.name n))
  | .arr vs => (DM.mapM (csItem filtered loc fuel) vs).bind fun xs => DM.pure (.ok (.arr xs))
  | _ => DM.pure (.error .typeError)

/-- `self.ImageMask`, which is read only if the filter is not CCITTFaxDecode, pillow.py:67. -/
def maskVal (f : Option Bytes) (x : Val) : DM σ Bool :=
  if f = some b!"CCITTFaxDecode" then DM.pure (.ok false)
  else (attr loc fuel x b!"ImageMask").bind fun v => DM.pure (.ok (truthyVal v))

/-- What `to_Pillow` reads of an image XObject, in the order in which it reads it, pillow.py:60-91. Attributes which are not read on the way taken
have the values of `ImageAttrs`. -/
def imageAttrs (x : Val) : DM σ ImageAttrs :=
  match x with
  | .stream _ d raw =>
    (attr loc fuel x b!"Width").bind fun w => (DM.pure (natVal w)).bind fun w =>
    (attr loc fuel x b!"Height").bind fun h => (DM.pure (natVal h)).bind fun h =>
    (attr loc fuel x b!"Filter").bind fun f => (DM.pure (filterVal f)).bind fun f =>
    (DM.pure (lastFilter f)).bind fun last =>
      if last = some b!"DCTDecode" ∨ last = some b!"JPXDecode" then
        DM.pure (.ok { width := w, height := h, filter := f, raw := raw, filtered := filtered d raw })
      else
        (maskVal loc fuel last x).bind fun m =>
          if last = some b!"CCITTFaxDecode" ∨ m = true then
            (attr loc fuel x b!"BitsPerComponent").bind fun b => (DM.pure (bitsVal b)).bind fun b =>
            (attr loc fuel x b!"Decode").bind fun dec => (DM.pure (decodeVal dec)).bind fun dec =>
              DM.pure (.ok { width := w, height := h, filter := f, mask := m, bits := b, decode := dec, raw := raw, filtered := filtered d raw })
          else
            (attr loc fuel x b!"ColorSpace").bind fun c => (spaceVal filtered loc fuel c).bind fun c =>
              DM.pure (.ok { width := w, height := h, filter := f, mask := m, space := c, raw := raw, filtered := filtered d raw })
  | _ => DM.pure (.error .attributeError)

/-- `image.to_Pillow()` for an image XObject, pillow.py:55-93. -/
def imagePillow (x : Val) : DM σ Pil := (imageAttrs filtered loc fuel x).bind fun im => DM.pure (toPillow im)
end

end PdfReader
