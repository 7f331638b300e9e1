/-
  What pages paint, in terms of the objects of a file: the images by name, the inline images, the forms; and the pixels of an image.
-/
import Verif.Spec.View
import Verif.Spec.Image
import Verif.Spec.TextFile

namespace PdfReader.Spec

/-- What is to be seen on a page. -/
structure Picture where
  strings : List Text
  inline : List Content
  images : Bytes → Option Val
  forms : Bytes → Option (List Text)

/-- A canvas of the viewer has the picture. -/
structure Depicts (c : Canvas) (p : Picture) : Prop where
  strings : c.strings = p.strings
  inline : c.inline = p.inline
  images : ∀ n, assoc n c.images = p.images n
  forms : ∀ n, (assoc n c.forms).map (·.strings) = p.forms n

section
variable (store : Store) (filtered : List (Bytes × Obj) → Bytes → Res Bytes) (builtin : Builtin) (predefined : Bytes → Option CMap)

/-- Where the content paints the form for the first time, the form shows the strings, starting with the font in force there. -/
def FirstForm (dec : Option Bytes → Obj → Option Text) (chain : List (List (Bytes × Category))) (cs : List Content) (n : Bytes) (us : List Text) : Prop :=
  ∃ cs₁ cs₂ rest d raw f fs fs' ts₁ ts₂, cs = cs₁ ++ .op b!"Do" (.name n :: rest) :: cs₂ ∧ ¬ Paints cs₁ n ∧ (∀ o ∈ rest, Plain o) ∧
    Shows dec (DoIs store filtered builtin predefined chain) (GsIs store chain) [.none] cs₁ (f :: fs) ts₁ ∧
    Shows dec (DoIs store filtered builtin predefined chain) (GsIs store chain) (f :: fs) cs₂ fs' ts₂ ∧
    nearest chain b!"XObject" n = some (.stream b!"Form" d raw) ∧ FormIs store filtered builtin predefined chain d raw f us

/-- The page with this dictionary shows the strings of its content, the inline images of its content, and the XObjects which Do paints: those
which the nearest resources have under the name, and for the forms among them their strings. -/
def PagePaints (es : List (Bytes × Obj)) (p : Picture) : Prop :=
  ∃ chain v s cs fs' dec, Ancestry store es chain ∧ Consistent chain ∧ NamedIn chain ∧ EntryIs store es b!"Contents" v ∧ ContentsData filtered v s ∧
    ContentText [] cs s ∧ (∀ f o t, dec f o = some t → StringIs store filtered builtin predefined chain f o t) ∧
    Shows dec (DoIs store filtered builtin predefined chain) (GsIs store chain) [.none] cs fs' p.strings ∧
    p.inline = imagesOf cs ∧
    (∀ n x, p.images n = some x ↔ Paints cs n ∧ nearest chain b!"XObject" n = some x ∧ ∃ d raw, x = .stream b!"Image" d raw ∧ raw ≠ []) ∧
    (∀ n, (∃ us, p.forms n = some us) ↔ Paints cs n ∧ ∃ d raw, nearest chain b!"XObject" n = some (.stream b!"Form" d raw) ∧ raw ≠ []) ∧
    ∀ n us, p.forms n = some us → FirstForm store filtered builtin predefined dec chain cs n us

/-- Pages, and what each of them paints. -/
inductive PagesPaint : List (List (Bytes × Obj)) → List Picture → Prop
  | nil : PagesPaint [] []
  | cons (es : List (Bytes × Obj)) (p : Picture) (es' : List (List (Bytes × Obj))) (ps : List Picture) :
      PagePaints store filtered builtin predefined es p → PagesPaint es' ps → PagesPaint (es :: es') (p :: ps)

/-! ### Images -/

/-- The Filter of an image. -/
inductive FilterIs (d : List (Bytes × Obj)) : ImgFilter → Prop
  | absent : NoEntry d b!"Filter" → FilterIs d .none
  | one (n : Bytes) : EntryIs store d b!"Filter" (.atom (.name n)) → FilterIs d (.one n)
  | many (ns : List Bytes) : EntryIs store d b!"Filter" (.arr (ns.map fun n => .atom (.name n))) → FilterIs d (.many ns)

/-- The image is no mask. -/
def NoMask (d : List (Bytes × Obj)) : Prop := NoEntry d b!"ImageMask" ∨ EntryIs store d b!"ImageMask" (.atom (.bool false))

/-- The bytes of a table of colours: a string or a stream. -/
inductive TableIs : Val → Bytes → Prop
  | string (o : Obj) (t : Bytes) : BytesAre o t → TableIs (.atom o) t
  | stream (cls : Bytes) (d : List (Bytes × Obj)) (raw t : Bytes) : filtered d raw = .ok t → TableIs (.stream cls d raw) t

/-- Width and Height. -/
def SizeIs (d : List (Bytes × Obj)) (w h : Nat) : Prop :=
  EntryIs store d b!"Width" (.atom (.int w)) ∧ EntryIs store d b!"Height" (.atom (.int h))

/-- The colours of the base of an indexed colour space, with the mode of Pillow: a device colour space, or one with an ICC profile, which has N components. -/
inductive BaseIs : Val → Bytes → Prop
  | device (n mode : Bytes) (k : Nat) : (n, k, mode) ∈ deviceSpaces → n ≠ b!"DeviceGray" → BaseIs (.atom (.name n)) mode
  | profile (cls : Bytes) (p : List (Bytes × Obj)) (raw mode : Bytes) (k : Nat) : EntryIs store p b!"N" (.atom (.int k)) → (k, mode) ∈ [(1, b!"L"), (3, b!"RGB"), (4, b!"CMYK")] →
      BaseIs (.arr [.atom (.name b!"ICCBased"), .stream cls p raw]) mode

/-- The bits are the colours: there is no Decode, or it says so. -/
def AsWritten (d : List (Bytes × Obj)) : Prop := NoEntry d b!"Decode" ∨ EntryIs store d b!"Decode" (.arr [.atom (.int 0), .atom (.int 1)])

/-- Decode exchanges the two colours. -/
def Exchanged (d : List (Bytes × Obj)) : Prop := EntryIs store d b!"Decode" (.arr [.atom (.int 1), .atom (.int 0)])

/-- What Pillow is to be given for an image with this dictionary and these data: the pixels in a device colour space, an image with a palette,
the two colours of a mask or of a facsimile, or a file. DeviceGray is left out (C84). -/
inductive Pictured (d : List (Bytes × Obj)) (raw : Bytes) : Pil → Prop
  | device (w h : Nat) (f : ImgFilter) (n mode data : Bytes) (k : Nat) : SizeIs store d w h → FilterIs store d f → PlainFilter f → NoMask store d →
      EntryIs store d b!"ColorSpace" (.atom (.name n)) → (n, k, mode) ∈ deviceSpaces → n ≠ b!"DeviceGray" → filtered d raw = .ok data →
      data.length = fullSize w h k 8 → Pictured d raw (.pixels mode w h data)
  | indexed (w h : Nat) (f : ImgFilter) (mode data table : Bytes) (hival : Int) (base lookup : Val) : SizeIs store d w h → FilterIs store d f →
      PlainFilter f → NoMask store d →
      EntryIs store d b!"ColorSpace" (.arr [.atom (.name b!"Indexed"), base, .atom (.int hival), lookup]) → BaseIs store base mode → TableIs filtered lookup table →
      filtered d raw = .ok data → Pictured d raw (.palette w h table mode data)
  | mask (w h : Nat) (f : ImgFilter) (data : Bytes) : SizeIs store d w h → FilterIs store d f → PlainFilter f →
      EntryIs store d b!"ImageMask" (.atom (.bool true)) → EntryIs store d b!"BitsPerComponent" (.atom (.int 1)) → AsWritten store d →
      filtered d raw = .ok data → Pictured d raw (.pixels b!"1" w h data)
  | maskExchanged (w h : Nat) (f : ImgFilter) (data : Bytes) : SizeIs store d w h → FilterIs store d f → PlainFilter f →
      EntryIs store d b!"ImageMask" (.atom (.bool true)) → EntryIs store d b!"BitsPerComponent" (.atom (.int 1)) → Exchanged store d →
      filtered d raw = .ok data → Pictured d raw (.pixels b!"1" w h (data.map (~~~ ·)))
  | fax (w h : Nat) (f : ImgFilter) (data : Bytes) : SizeIs store d w h → FilterIs store d f → FaxFilter f →
      EntryIs store d b!"BitsPerComponent" (.atom (.int 1)) → AsWritten store d → filtered d raw = .ok data → Pictured d raw (.pixels b!"1" w h data)
  | faxExchanged (w h : Nat) (f : ImgFilter) (data : Bytes) : SizeIs store d w h → FilterIs store d f → FaxFilter f →
      EntryIs store d b!"BitsPerComponent" (.atom (.int 1)) → Exchanged store d → filtered d raw = .ok data →
      Pictured d raw (.pixels b!"1" w h (data.map (~~~ ·)))
  | encoded (w h : Nat) (n : Bytes) : SizeIs store d w h → FilterIs store d (.one n) → n ∈ [b!"DCTDecode", b!"JPXDecode"] → Pictured d raw (.opened raw)
end

/-! ### A writer of images: each page paints one -/

/-- An image of 8 bits for each of red, green and blue. -/
structure Bitmap where
  width : Nat
  height : Nat
  data : Bytes

def imageContent : Bytes := b!"/Im Do"

/-- The page with number `k`; its content is the object `k + 1` and its image the object `k + 2`. -/
def imagePage (k : Nat) : List (Bytes × Obj) :=
  [(b!"Type", .name b!"Page"), (b!"Parent", .ref 2 0), (b!"Contents", .ref (k + 1) 0),
    (b!"Resources", .dict [(b!"XObject", .dict [(b!"Im", .ref (k + 2) 0)])])]

/-- The dictionary of an image with these data. -/
def imageEntries (how : List (Bytes × Obj)) (b : Bitmap) (raw : Bytes) : List (Bytes × Obj) :=
  [(b!"Length", .int raw.length), (b!"Type", .name b!"XObject"), (b!"Subtype", .name b!"Image"), (b!"Width", .int b.width), (b!"Height", .int b.height),
    (b!"ColorSpace", .name b!"DeviceRGB"), (b!"BitsPerComponent", .int 8)] ++ how

/-- The objects of the pages, from the number `k` on. -/
def imageItems (how : List (Bytes × Obj)) (encode : Bytes → Bytes) : Nat → List Bitmap → List FileItem
  | _, [] => []
  | k, b :: bs =>
    ⟨k, 0, .dict (imagePage k)⟩ :: ⟨k + 1, 0, .stream ((b!"Length", .int (encode imageContent).length) :: how) (encode imageContent)⟩ ::
      ⟨k + 2, 0, .stream (imageEntries how b (encode b.data)) (encode b.data)⟩ :: imageItems how encode (k + 3) bs

/-- The numbers of the pages. -/
def imageNumbers : Nat → List Bitmap → List Nat
  | _, [] => []
  | k, _ :: bs => k :: imageNumbers (k + 3) bs

/-- The root of the page tree. -/
def imageTree (bs : List Bitmap) : List (Bytes × Obj) :=
  [(b!"Type", .name b!"Pages"), (b!"Kids", .arr ((imageNumbers 3 bs).map fun k => .ref k 0)), (b!"Count", .int bs.length)]

/-- The document. -/
def imageDraft (how : List (Bytes × Obj)) (encode : Bytes → Bytes) (bs : List Bitmap) : Draft where
  items := ⟨1, 0, .dict catalogDict⟩ :: ⟨2, 0, .dict (imageTree bs)⟩ :: imageItems how encode 3 bs
  trailer := [(b!"Size", .int (3 + 3 * bs.length : Nat)), (b!"Root", .ref 1 0)]

end PdfReader.Spec
