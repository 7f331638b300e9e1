/-
  What the content of a page means to a user: nesting of q and Q, and the strings which text-showing operators show.
-/
import Verif.Model.Viewer

namespace PdfReader.Spec

/-- Every q has its Q, and every Q its q. -/
inductive Balanced : List Content → Prop
  | nil : Balanced []
  | image (d : List (Bytes × Obj)) (data : Bytes) : Balanced [.image d data]
  | op (name : Bytes) (args : List Obj) : name ≠ b!"q" → name ≠ b!"Q" → Balanced [.op name args]
  | group (a b : List Obj) (cs : List Content) : Balanced cs → Balanced (.op b!"q" a :: (cs ++ [.op b!"Q" b]))
  | append (cs ds : List Content) : Balanced cs → Balanced ds → Balanced (cs ++ ds)

/-- The operators of PDF, ISO 32000-1 Annex A, but for BI, ID and EI, which make inline images, and for `"`. -/
def operators : List Bytes :=
  [b!"b", b!"B", b!"b*", b!"B*", b!"BDC", b!"BMC", b!"BT", b!"BX", b!"c", b!"cm", b!"CS", b!"cs", b!"d", b!"d0", b!"d1", b!"Do", b!"DP",
   b!"EMC", b!"ET", b!"EX", b!"f", b!"F", b!"f*", b!"G", b!"g", b!"gs", b!"h", b!"i", b!"j", b!"J", b!"K", b!"k", b!"l", b!"m", b!"M", b!"MP",
   b!"n", b!"q", b!"Q", b!"re", b!"RG", b!"rg", b!"ri", b!"s", b!"S", b!"SC", b!"sc", b!"SCN", b!"scn", b!"sh", b!"T*", b!"Tc", b!"Td", b!"TD",
   b!"Tf", b!"Tj", b!"TJ", b!"TL", b!"Tm", b!"Tr", b!"Ts", b!"Tw", b!"Tz", b!"v", b!"w", b!"W", b!"W*", b!"y", b!"'"]

/-- Operators which need a rule of their own below. -/
def special : List Bytes := [b!"q", b!"Q", b!"Tf", b!"Tj", b!"'", b!"TJ", b!"Do", b!"gs", b!"DP", b!"BDC"]

/-- Operators with an operand. -/
def unary : List Bytes := [b!"w", b!"J", b!"j", b!"M", b!"ri", b!"i"]

/-- Operands without references, streams and images. -/
inductive Plain : Obj → Prop
  | null : Plain .null
  | bool (b : Bool) : Plain (.bool b)
  | int (n : Int) : Plain (.int n)
  | real (c e : Int) : Plain (.real c e)
  | name (n : Bytes) : Plain (.name n)
  | str (s : Bytes) : Plain (.str s)
  | hex (s : Bytes) : Plain (.hex s)
  | token (t : Bytes) : Plain (.token t)
  | arr (xs : List Obj) : (∀ x ∈ xs, Plain x) → Plain (.arr xs)
  | dict (es : List (Bytes × Obj)) : (∀ e ∈ es, Plain e.2) → Plain (.dict es)

/-- The first filter of an inline image is one for ASCII. Hexadecimal strings and keywords are not told from names. -/
def AsciiCoded (d : List (Bytes × Obj)) : Prop :=
  ∃ n f key, n ∈ [b!"ASCIIHexDecode", b!"AHx", b!"ASCII85Decode", b!"A85"] ∧ (f = .name n ∨ f = .hex n ∨ f = .token n) ∧ key ∈ [b!"Filter", b!"F"] ∧
    (dictGet d key = some f ∨ ∃ rest, dictGet d key = some (.arr (f :: rest)))

/-- An inline image: entries without references; one filter at least or none at all; data which are ASCII if the first filter says so. -/
def PlainImage (d : List (Bytes × Obj)) (data : Bytes) : Prop :=
  (∀ e ∈ d, Plain e.2) ∧ dictGet d b!"F" ≠ some (.arr []) ∧ (AsciiCoded d → ∀ c ∈ data, c.toNat < 128)

/-- The strings of the array of TJ, in their order; numbers move the position. -/
inductive TextsOf (dec : Obj → Option Text) : List Obj → List Text → Prop
  | nil : TextsOf dec [] []
  | string (o : Obj) (t : Text) (os : List Obj) (ts : List Text) : ((∃ s, o = .str s) ∨ ∃ s, o = .hex s) → dec o = some t → TextsOf dec os ts →
      TextsOf dec (o :: os) (t :: ts)
  | other (o : Obj) (os : List Obj) (ts : List Text) : (∀ s, o ≠ .str s) → (∀ s, o ≠ .hex s) → TextsOf dec os ts → TextsOf dec (o :: os) ts

/-- `Shows dec doOk gsOk fs cs fs' ts`: the content `cs` shows the strings `ts`, one for each operand of a text-showing operator, in this
order. A string is decoded with the font in force: `fs` are the fonts of the graphics states on the stack, the current one first, and `fs'`
those at the end; a stack has one state at least. `dec f` decodes with the font `f`, or without a font. `doOk` and `gsOk` tell for which
operands Do and gs are of no influence on this. -/
inductive Shows (dec : Option Bytes → Obj → Option Text) (doOk : Option Bytes → List Obj → Prop) (gsOk : List Obj → Prop) :
    List (Option Bytes) → List Content → List (Option Bytes) → List Text → Prop
  | nil (fs : List (Option Bytes)) : Shows dec doOk gsOk fs [] fs []
  | image (d : List (Bytes × Obj)) (data : Bytes) (fs fs' : List (Option Bytes)) (cs : List Content) (ts : List Text) : PlainImage d data →
      Shows dec doOk gsOk fs cs fs' ts → Shows dec doOk gsOk fs (.image d data :: cs) fs' ts
  | save (args : List Obj) (f : Option Bytes) (fs fs' : List (Option Bytes)) (cs : List Content) (ts : List Text) : (∀ o ∈ args, Plain o) →
      Shows dec doOk gsOk (f :: f :: fs) cs fs' ts → Shows dec doOk gsOk (f :: fs) (.op b!"q" args :: cs) fs' ts
  | restore (args : List Obj) (f g : Option Bytes) (fs fs' : List (Option Bytes)) (cs : List Content) (ts : List Text) : (∀ o ∈ args, Plain o) →
      Shows dec doOk gsOk (f :: fs) cs fs' ts → Shows dec doOk gsOk (g :: f :: fs) (.op b!"Q" args :: cs) fs' ts
  | font (n : Bytes) (size : Obj) (f : Option Bytes) (fs fs' : List (Option Bytes)) (cs : List Content) (ts : List Text) : Plain size →
      Shows dec doOk gsOk (some n :: fs) cs fs' ts → Shows dec doOk gsOk (f :: fs) (.op b!"Tf" [.name n, size] :: cs) fs' ts
  | one (name : Bytes) (o : Obj) (t : Text) (f : Option Bytes) (fs fs' : List (Option Bytes)) (cs : List Content) (ts : List Text) :
      name = b!"Tj" ∨ name = b!"'" → dec f o = some t → Shows dec doOk gsOk (f :: fs) cs fs' ts →
      Shows dec doOk gsOk (f :: fs) (.op name [o] :: cs) fs' (t :: ts)
  | many (xs : List Obj) (us : List Text) (f : Option Bytes) (fs fs' : List (Option Bytes)) (cs : List Content) (ts : List Text) :
      (∀ x ∈ xs, Plain x) → TextsOf (dec f) xs us → Shows dec doOk gsOk (f :: fs) cs fs' ts →
      Shows dec doOk gsOk (f :: fs) (.op b!"TJ" [.arr xs] :: cs) fs' (us ++ ts)
  | xobject (args : List Obj) (f : Option Bytes) (fs fs' : List (Option Bytes)) (cs : List Content) (ts : List Text) : (∀ o ∈ args, Plain o) →
      doOk f args → Shows dec doOk gsOk (f :: fs) cs fs' ts → Shows dec doOk gsOk (f :: fs) (.op b!"Do" args :: cs) fs' ts
  | state (args : List Obj) (fs fs' : List (Option Bytes)) (cs : List Content) (ts : List Text) : (∀ o ∈ args, Plain o) →
      gsOk args → Shows dec doOk gsOk fs cs fs' ts → Shows dec doOk gsOk fs (.op b!"gs" args :: cs) fs' ts
  | marked (name : Bytes) (tag props : Obj) (f : Option Bytes) (fs fs' : List (Option Bytes)) (cs : List Content) (ts : List Text) :
      name = b!"DP" ∨ name = b!"BDC" → Plain tag → Plain props →
      (∀ es s, props = .dict es → dictGet es b!"Contents" = some (.str s) → ∃ t, dec f (.str s) = some t) →
      Shows dec doOk gsOk (f :: fs) cs fs' ts → Shows dec doOk gsOk (f :: fs) (.op name [tag, props] :: cs) fs' ts
  | other (name : Bytes) (args : List Obj) (fs fs' : List (Option Bytes)) (cs : List Content) (ts : List Text) : name ∈ operators → name ∉ special →
      (name ∈ unary → args ≠ []) → (∀ o ∈ args, Plain o) → Shows dec doOk gsOk fs cs fs' ts → Shows dec doOk gsOk fs (.op name args :: cs) fs' ts

/-- Two hexadecimal digits make a byte. -/
def hexPairs : Bytes → Option Bytes
  | [] => some []
  | [_] => none
  | a :: b :: r =>
    match hexVal? a, hexVal? b, hexPairs r with
    | some x, some y, some s => some (UInt8.ofNat (16 * x + y) :: s)
    | _, _, _ => none

/-- Latin-1: each byte is a character. -/
def latin1 : Obj → Option Text
  | .str s => some (s.map (·.toNat))
  | .hex ds => (hexPairs ds).map fun s => s.map (·.toNat)
  | _ => none

/-- Decoding with the font of a name in the resources, and Latin-1 without. -/
def decoding (decode : Val → Obj → Res Text) (res : Resources) (f : Option Bytes) (o : Obj) : Option Text :=
  match f.bind fun n => resource res b!"Font" n with
  | some v => (decode v o).toOption
  | none => latin1 o

/-- The categories of resources which rendering looks into are dictionaries. -/
def Named (res : Resources) : Prop := ∀ cat ∈ [b!"Font", b!"XObject", b!"ExtGState"], ∀ ns, assoc cat res ≠ some (.procs ns)

/-- Numbers, names, strings and arrays of them; no dictionaries or streams of a document. -/
inductive Data : Val → Prop
  | atom (o : Obj) : Data (.atom o)
  | arr (vs : List Val) : (∀ v ∈ vs, Data v) → Data (.arr vs)

/-- gs with the name of a graphics state parameter dictionary, if it is one of the resources, which sets no font. The keys `self` and `font_name`
are not defined by PDF. -/
def PlainGs (h : Host) (res : Resources) (args : List Obj) : Prop :=
  ∃ n rest, args = .name n :: rest ∧ ∀ v, resource res b!"ExtGState" n = some v →
    ∃ cls es items, v = .dict cls es ∧ h.items es = .ok items ∧ assoc b!"self" items = none ∧ assoc b!"font_name" items = none ∧
      assoc b!"Font" items = none ∧ ∀ k w, assoc k items = some w → Data w

/-- A form whose content shows strings. It starts with the font in force where it is painted and leaves nothing on the stack. -/
def FormShows (h : Host) (x : Val) (f : Option Bytes) (ts : List Text) : Prop :=
  ∃ r s cs f', h.formResources x = .ok r ∧ Named r ∧ h.data x = .ok s ∧ contentObjects s = (cs, none) ∧
    Shows (decoding h.decode r) (fun _ _ => True) (PlainGs h r) [f] cs [f'] ts

/-- Do with the name of an XObject: if it is one of the resources and a form, its content shows some strings. -/
def PlainDo (h : Host) (res : Resources) (f : Option Bytes) (args : List Obj) : Prop :=
  ∃ n rest, args = .name n :: rest ∧ ∀ es d, resource res b!"XObject" n = some (.stream b!"Form" es d) → ∃ ts, FormShows h (.stream b!"Form" es d) f ts

/-- The forms among the XObjects have balanced content. -/
def FormsBalanced (h : Host) (res : Resources) : Prop :=
  ∀ name es d s, resource res b!"XObject" name = some (.stream b!"Form" es d) → h.data (.stream b!"Form" es d) = .ok s → Balanced (contentObjects s).1

/-- The inline images of a content. -/
def imagesOf (cs : List Content) : List Content := cs.filter fun c => match c with | .image _ _ => true | .op _ _ => false

/-- The content paints the XObject with the name. The operand is a name; hexadecimal strings and keywords are not told from names. -/
def Paints (cs : List Content) (n : Bytes) : Prop := ∃ o rest, Content.op b!"Do" (o :: rest) ∈ cs ∧ (o = .name n ∨ o = .hex n ∨ o = .token n)

/-- The content of a page: that of its stream, or of its streams together. Empty strings, names and dictionaries stand for nothing. -/
inductive ContentsAre (h : Host) : Val → Bytes → Prop
  | one (cls : Bytes) (es : List (Bytes × Obj)) (d s : Bytes) : h.data (.stream cls es d) = .ok s → ContentsAre h (.stream cls es d) s
  | none : ContentsAre h (.arr []) []
  | more (cls : Bytes) (es : List (Bytes × Obj)) (d s t : Bytes) (vs : List Val) : h.data (.stream cls es d) = .ok s → ContentsAre h (.arr vs) t →
      ContentsAre h (.arr (.stream cls es d :: vs)) (s ++ t)
  | empty (v : Val) : (v = .atom (.str []) ∨ v = .atom (.hex []) ∨ v = .atom (.name []) ∨ ∃ cls, v = .dict cls []) → ContentsAre h v []

/-- A page has resources and a content. -/
def PageReads (pg : PageInfo) (r : Resources) (s : Bytes) : Prop := pg.resources = .ok r ∧ ∃ c, pg.contents = .ok c ∧ ContentsAre pg.host c s

/-- The page with a number: pages are numbered from 1. -/
def PageIs (doc : DocPages) (n : Int) (pg : PageInfo) : Prop := ∃ k : Nat, n = k + 1 ∧ doc.pages[k]? = some pg

/-- There is no page with the number, and the pages can all be enumerated. -/
def NoPage (doc : DocPages) (n : Int) : Prop := doc.fails = Option.none ∧ ∃ k : Nat, n = k + 1 ∧ doc.pages.length ≤ k

/-- The canvas of a page: that of rendering it alone. -/
def Shown (pg : PageInfo) (c : Canvas) : Prop := ∃ r s p, PageReads pg r s ∧ renderPage pg.host r s {} = (.ok (), p) ∧ p.canvas = c

/-- The canvases of pages. -/
inductive AllShown : List PageInfo → List Canvas → Prop
  | nil : AllShown [] []
  | cons (pg : PageInfo) (c : Canvas) (pgs : List PageInfo) (cs : List Canvas) : Shown pg c → AllShown pgs cs → AllShown (pg :: pgs) (c :: cs)

/-- What a user does with a viewer. -/
inductive Call where
  | navigate (n : Int)
  | next
  | prev
  | render

/-- The method called. -/
def Call.run (doc : DocPages) : Call → DM Viewer Unit
  | .navigate n => Viewer.navigate doc n
  | .next => Viewer.next doc
  | .prev => Viewer.prev doc
  | .render => Viewer.render

/-- Viewers after any history of calls, which may have raised exceptions. -/
inductive Reached (doc : DocPages) : Viewer → Prop
  | opened (v : Viewer) : openViewer doc = .ok v → Reached doc v
  | called (c : Call) (v v' : Viewer) (r : Res Unit) : Reached doc v → c.run doc v = (r, v') → Reached doc v'

/-- Viewers after a history of calls which returned. -/
inductive Clean (doc : DocPages) : Viewer → Prop
  | opened (v : Viewer) : openViewer doc = .ok v → Clean doc v
  | called (c : Call) (v v' : Viewer) : Clean doc v → c.run doc v = (.ok (), v') → Clean doc v'

end PdfReader.Spec
