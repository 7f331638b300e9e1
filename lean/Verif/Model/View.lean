/-
  The viewer on a document: how the pages, resources, fonts and streams of a document which was opened come to the viewer of
  `Model/Viewer.lean`. pdfreader/viewer/pdfviewer.py, simple.py, codecs/decoder.py.

  Simplification: what the viewer asks the document for while it renders is answered from the state after the pages were listed. The answers
  do not depend on what was asked before (C90).
-/
import Verif.Model.Viewer
import Verif.Model.Codecs

namespace PdfReader

/-- A value as the parser would have delivered it without references. -/
def plainObj : Val → Obj
  | .atom o => o
  | .arr vs => .arr (plainObjs vs)
  | .dict _ es => .dict es
  | .stream _ d data => .stream d data
where
  /-- The elements. -/
  plainObjs : List Val → List Obj
    | [] => []
    | v :: vs => plainObj v :: plainObjs vs

/-- `explicit_cmap.filtered` if `bool(explicit_cmap)`, decoder.py:54-58. Simplification: dictionaries are like other values without the
attribute. -/
def cmapText (filtered : List (Bytes × Obj) → Bytes → Res Bytes) (v : Val) : Res (Option Bytes) :=
  if truthyVal v then
    match v with
    | .stream _ d raw => (filtered d raw).map some
    | _ => .error .attributeError
  else .ok none

/-- `font.get('Encoding')`, decoder.py:54: the entries of a dictionary which the codec reads (differences.py:46-62) are resolved. -/
def fontEncoding {σ : Type} (loc : Locator σ) (fuel : Nat) (v : Val) : DM σ (Option Obj) :=
  match v with
  | .atom .null => DM.pure (.ok none)
  | .dict _ [] => DM.pure (.ok (some (.dict [])))
  | .dict _ es =>
    (entry loc fuel es b!"BaseEncoding").bind fun b => (entry loc fuel es b!"Differences").bind fun d =>
      DM.pure (.ok (some (.dict [(b!"BaseEncoding", plainObj b), (b!"Differences", plainObj d)])))
  | v => DM.pure (.ok (some (plainObj v)))

/-- `font.get('BaseFont')` as far as the comparison with names goes, decoder.py:66. -/
def fontName : Val → Option Bytes
  | .atom (.name n) => some n
  | _ => none

/-- What `_get_cmap_encoding` reads of a font, decoder.py:52-69. Simplification: only dictionaries are fonts, and BaseFont is read even if it
is not needed. -/
def fontDict {σ : Type} (filtered : List (Bytes × Obj) → Bytes → Res Bytes) (loc : Locator σ) (fuel : Nat) (v : Val) : DM σ FontDict :=
  match v with
  | .dict _ es =>
    (entry loc fuel es b!"ToUnicode").bind fun u => (entry loc fuel es b!"Encoding").bind fun e =>
      (DM.pure (cmapText filtered u)).bind fun t => (fontEncoding loc fuel e).bind fun enc => (entry loc fuel es b!"BaseFont").bind fun b =>
        DM.pure (.ok ⟨t, enc, fontName b⟩)
  | _ => DM.pure (.error .attributeError)

/-- `Decoder(font).decode_hexstring(s)`, decoder.py:119-142, 152-153. -/
def fontDecodeHex (builtin : Builtin) (predefined : Bytes → Option CMap) (cls : Nat) (f : FontDict) (s : Bytes) : Res Text :=
  match cmapEncoding predefined f with
  | .error e => .error e
  | .ok (some c, enc) => cmapDecodeHex c.bf (fallbackHex builtin cls enc) s
  | .ok (none, _) => (hexBytes s).bind fun s => fontDecode builtin predefined cls f s

/-- `decode_string`, simple.py:96-101, with the decoder of a font. Simplification: operands other than strings raise TypeError. -/
def fontText (builtin : Builtin) (predefined : Bytes → Option CMap) (f : FontDict) : Obj → Res Text
  | .str s => fontDecode builtin predefined 0 f s
  | .hex s => fontDecodeHex builtin predefined 0 f s
  | _ => .error .typeError

/-- The resources of a form on a page, simple.py:225-226. -/
def formStack {σ : Type} (loc : Locator σ) (fuel : Nat) (page x : Val) : DM σ Resources :=
  (attr loc fuel x b!"Resources").bind fun r => fromPage loc fuel page (if truthyVal r then [r] else [])

/-- What a page asks the document for. -/
def hostAt {σ : Type} (filtered : List (Bytes × Obj) → Bytes → Res Bytes) (builtin : Builtin) (predefined : Bytes → Option CMap) (loc : Locator σ)
    (fuel : Nat) (page : Val) (s : σ) : Host where
  decode v o := (fontDict filtered loc fuel v s).1.bind fun f => fontText builtin predefined f o
  items es := (itemsOf loc fuel es s).1
  data v := match v with | .stream _ d raw => filtered d raw | _ => .error .attributeError
  formResources x := (formStack loc fuel page x s).1

/-- A page as the viewer uses it: `Resources.from_page(page)`, pdfviewer.py:298-299, and `page.Contents`, 316-321. -/
def pageInfo {σ : Type} (filtered : List (Bytes × Obj) → Bytes → Res Bytes) (builtin : Builtin) (predefined : Bytes → Option CMap) (loc : Locator σ)
    (fuel : Nat) (s : σ) (page : Val) : PageInfo where
  host := hostAt filtered builtin predefined loc fuel page s
  resources := (fromPage loc fuel page [] s).1
  contents := (attr loc fuel page b!"Contents" s).1

/-- The pages of a document, for the viewer. -/
def viewDoc (filtered : List (Bytes × Obj) → Bytes → Res Bytes) (builtin : Builtin) (predefined : Bytes → Option CMap) (fuel fuel' : Nat) (doc : Opened)
    (root : Val) : DocPages :=
  match docPages (locate doc.env fuel) fuel' root doc.st with
  | (ps, e, s) => { pages := ps.map (pageInfo filtered builtin predefined (locate doc.env fuel) fuel' s), fails := e }

/-- `SimplePDFViewer(fobj)` up to the first page, pdfviewer.py:216-222: the document is opened. -/
def viewFile (filtered : List (Bytes × Obj) → Bytes → Res Bytes) (builtin : Builtin) (predefined : Bytes → Option CMap)
    (secure : Opened → Obj → Res Opened) (clamps : Bool) (fuel fuel' : Nat) (file : Bytes) : Res DocPages :=
  match openDocument filtered secure clamps fuel file with
  | .error e => .error e
  | .ok (doc, root) => .ok (viewDoc filtered builtin predefined fuel fuel' doc root)

end PdfReader
