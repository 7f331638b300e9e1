/-
  What the pages of a file show: contents, inherited resources, fonts and forms, in terms of the objects of the file.
-/
import Verif.Model.View
import Verif.Spec.Objects
import Verif.Spec.Viewer
import Verif.Spec.Content
import Verif.Spec.Text

namespace PdfReader.Spec

section
variable (store : Store) (filtered : List (Bytes × Obj) → Bytes → Res Bytes)

/-- The content of a page: the data of its stream, or of its streams one after the other. -/
inductive ContentsData : Val → Bytes → Prop
  | one (cls : Bytes) (d : List (Bytes × Obj)) (raw s : Bytes) : filtered d raw = .ok s → ContentsData (.stream cls d raw) s
  | none : ContentsData (.arr []) []
  | more (cls : Bytes) (d : List (Bytes × Obj)) (raw s t : Bytes) (vs : List Val) : filtered d raw = .ok s → ContentsData (.arr vs) t →
      ContentsData (.arr (.stream cls d raw :: vs)) (s ++ t)

/-- The ToUnicode CMap of a font: absent, or the data of a stream which is not empty. -/
inductive ToUnicodeIs (es : List (Bytes × Obj)) : Option Bytes → Prop
  | absent : NoEntry es b!"ToUnicode" → ToUnicodeIs es .none
  | stream (cls : Bytes) (d : List (Bytes × Obj)) (raw t : Bytes) : EntryIs store es b!"ToUnicode" (.stream cls d raw) → raw ≠ [] →
      filtered d raw = .ok t → ToUnicodeIs es (some t)

/-- An entry which is read, an object or an array of objects, or null if it is absent. -/
inductive EntryOr (es : List (Bytes × Obj)) (k : Bytes) : Obj → Prop
  | absent : NoEntry es k → EntryOr es k .null
  | object (o : Obj) : EntryIs store es k (.atom o) → EntryOr es k o
  | array (os : List Obj) : EntryIs store es k (.arr (os.map .atom)) → EntryOr es k (.arr os)

/-- The Encoding of a font: absent, a name, or a dictionary with BaseEncoding and Differences. -/
inductive EncodingIs (es : List (Bytes × Obj)) : Option Obj → Prop
  | absent : NoEntry es b!"Encoding" → EncodingIs es .none
  | name (n : Bytes) : EntryIs store es b!"Encoding" (.atom (.name n)) → EncodingIs es (some (.name n))
  | dict (c : Option Bytes) (ds : List (Bytes × Obj)) (b d : Obj) : EntryIs store es b!"Encoding" (.dict c ds) → ds ≠ [] →
      EntryOr store ds b!"BaseEncoding" b → EntryOr store ds b!"Differences" d →
      EncodingIs es (some (.dict [(b!"BaseEncoding", b), (b!"Differences", d)]))

/-- The BaseFont of a font: absent or a name. -/
inductive BaseFontIs (es : List (Bytes × Obj)) : Option Bytes → Prop
  | absent : NoEntry es b!"BaseFont" → BaseFontIs es .none
  | name (n : Bytes) : EntryIs store es b!"BaseFont" (.atom (.name n)) → BaseFontIs es (some n)

/-- A font of the file, with its references resolved. -/
inductive FontIs : Val → FontDict → Prop
  | mk (c : Option Bytes) (es : List (Bytes × Obj)) (f : FontDict) : ToUnicodeIs store filtered es f.toUnicode → EncodingIs store es f.encoding →
      BaseFontIs store es f.baseFont → FontIs (.dict c es) f

variable (builtin : Builtin) (predefined : Bytes → Option CMap)

/-- What a string means: in Latin-1, if there is no font; otherwise what its font, the nearest of the name, says. -/
inductive StringIs (chain : List (List (Bytes × Category))) : Option Bytes → Obj → Text → Prop
  | noFont (f : Option Bytes) (o : Obj) (t : Text) : (∀ n, f = some n → nearest chain b!"Font" n = .none) → latin1 o = some t → StringIs chain f o t
  | font (n : Bytes) (v : Val) (fd : FontDict) (o : Obj) (t : Text) : nearest chain b!"Font" n = some v → FontIs store filtered v fd →
      Means builtin predefined fd o t → StringIs chain (some n) o t

/-- gs with a graphics state parameter dictionary which sets no font. -/
def GsIs (chain : List (List (Bytes × Category))) (args : List Obj) : Prop :=
  ∃ n rest, args = .name n :: rest ∧ ∀ v, nearest chain b!"ExtGState" n = some v →
    ∃ cls es items, v = .dict cls es ∧ ItemsAre store es items ∧ (∀ k ∈ es.map (·.1), k ∉ [b!"self", b!"font_name", b!"Font"]) ∧
      ∀ e ∈ items, Data e.2

/-- Fonts, XObjects and graphics states are dictionaries of named resources. -/
def NamedIn (chain : List (List (Bytes × Category))) : Prop :=
  ∀ own ∈ chain, ∀ e ∈ own, e.1 ∈ [b!"Font", b!"XObject", b!"ExtGState"] → ∀ ns, e.2 ≠ .procs ns

/-- A form on a page with these resources shows the strings: its own resources come first. -/
def FormIs (chain : List (List (Bytes × Category))) (d : List (Bytes × Obj)) (raw : Bytes) (f : Option Bytes) (ts : List Text) : Prop :=
  ∃ own s cs f' dec, OwnResources store d own ∧ Consistent (own :: chain) ∧ NamedIn (own :: chain) ∧ filtered d raw = .ok s ∧ ContentText [] cs s ∧
    (∀ f o t, dec f o = some t → StringIs store filtered builtin predefined (own :: chain) f o t) ∧
    Shows dec (fun _ _ => True) (GsIs store (own :: chain)) [f] cs [f'] ts

/-- Do with a name; if this is the name of a form, its content is well-formed. -/
def DoIs (chain : List (List (Bytes × Category))) (f : Option Bytes) (args : List Obj) : Prop :=
  ∃ n rest, args = .name n :: rest ∧ ∀ d raw, nearest chain b!"XObject" n = some (.stream b!"Form" d raw) →
    ∃ ts, FormIs store filtered builtin predefined chain d raw f ts

/-- The page with this dictionary shows the strings. -/
def PageShows (es : List (Bytes × Obj)) (ts : List Text) : Prop :=
  ∃ chain v s cs fs' dec, Ancestry store es chain ∧ Consistent chain ∧ NamedIn chain ∧ EntryIs store es b!"Contents" v ∧ ContentsData filtered v s ∧
    ContentText [] cs s ∧ (∀ f o t, dec f o = some t → StringIs store filtered builtin predefined chain f o t) ∧
    Shows dec (DoIs store filtered builtin predefined chain) (GsIs store chain) [.none] cs fs' ts

/-- Pages, and what each of them shows. -/
inductive PagesShow : List (List (Bytes × Obj)) → List (List Text) → Prop
  | nil : PagesShow [] []
  | cons (es : List (Bytes × Obj)) (ts : List Text) (ps : List (List (Bytes × Obj))) (tss : List (List Text)) :
      PageShows store filtered builtin predefined es ts → PagesShow ps tss → PagesShow (es :: ps) (ts :: tss)
end

end PdfReader.Spec
