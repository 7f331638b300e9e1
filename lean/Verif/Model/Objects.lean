/-
  Document objects: pdfreader/types/objects.py (StreamBasedObject, ArrayBasedObject, DictBasedObject, obj_factory, PageTreeNode),
  pdfreader/document.py (build, obj_by_ref, pages) and pdfreader/viewer/resources.py.
-/
import Verif.Model.Locate
import Verif.Model.Codecs

namespace PdfReader

/-- What a document hands out. Entries of dictionaries and streams are stored as parsed: they are built when they are read. `cls` is the
name of the class: the Type of a dictionary, if it is listed in DICT_OBJECTS, and `Image`, `Form` … for streams. -/
inductive Val where
  | atom (o : Obj)
  | arr (xs : List Val)
  | dict (cls : Option Bytes) (es : List (Bytes × Obj))
  | stream (cls : Bytes) (d : List (Bytes × Obj)) (data : Bytes)

/-- Computations on the state of the parser, which survives exceptions. -/
abbrev DM (σ α : Type) := σ → Res α × σ

/-- `parser.locate_object(num, gen)` -/
abbrev Locator (σ : Type) := Nat → Nat → DM σ Obj

/-- Sequence of two computations. -/
def DM.bind {σ α β : Type} (m : DM σ α) (f : α → DM σ β) : DM σ β := fun s =>
  match m s with
  | (.error e, s1) => (.error e, s1)
  | (.ok a, s1) => f a s1

/-- No effect. -/
def DM.pure {σ α : Type} (r : Res α) : DM σ α := fun s => (r, s)

/-- `[f(x) for x in xs]` -/
def DM.mapM {σ α β : Type} (f : α → DM σ β) : List α → DM σ (List β)
  | [] => DM.pure (.ok [])
  | x :: xs => (f x).bind fun y => (DM.mapM f xs).bind fun ys => DM.pure (.ok (y :: ys))

/-- Keys of `DICT_OBJECTS`, types/objects.py:473-523. -/
def dictTypes : List Bytes :=
  [b!"Catalog", b!"Pages", b!"Page", b!"OCG", b!"OCMD", b!"Font", b!"Encoding", b!"CIDFont", b!"FontDescriptior", b!"Halftone", b!"Outlines",
   b!"Collection", b!"CollectionField", b!"CollectionSort", b!"CollectionSchema", b!"PageLabel", b!"Bread", b!"Thread", b!"Trans", b!"NavNode",
   b!"Annot", b!"Border", b!"Action", b!"Sig", b!"SigRef", b!"TransformParams", b!"Requirement", b!"ReqHandler", b!"Rendition",
   b!"MediaCriteria", b!"MinBitDepth", b!"MinScreenSize", b!"MediaClip", b!"MediaPermissions", b!"MediaDuration", b!"MediaScreenParams",
   b!"FWParams", b!"MediaOffset", b!"Timespan", b!"MediaPlayers", b!"MediaPlayerInfo", b!"SoftwareIdentifier", b!"Sound", b!"SlideShow",
   b!"LastModified", b!"StructTreeRoot", b!"StructElem", b!"MCR", b!"OBJR"]

/-- `hash(obj)`: lists, dictionaries, streams and references are unhashable (the latter two define `__eq__` only). -/
def hashable : Obj → Bool
  | .arr _ | .dict _ | .stream _ _ | .ref _ _ => false
  | _ => true

/-- `DICT_OBJECTS.get(obj.get('Type'), DictBasedObject)`, types/objects.py:134. -/
def dictClass (es : List (Bytes × Obj)) : Res (Option Bytes) :=
  match dictGet es b!"Type" with
  | some (.name t) => .ok (if t ∈ dictTypes then some t else none)
  | some o => if hashable o then .ok none else .error .typeError
  | none => .ok none

/-- The class of a stream, types/objects.py:129-133, 462-471. A reference as Type is compared with a string, by an `__eq__` which fails
with AttributeError. -/
def streamClass (d : List (Bytes × Obj)) : Res Bytes :=
  match (dictGet d b!"Type").getD .null with
  | .ref _ _ => .error .attributeError
  | .name t =>
    if t = b!"XObject" then
      match (dictGet d b!"Subtype").getD .null with
      | .name u => .ok (if u = b!"Image" then b!"Image" else if u = b!"Form" then b!"Form" else if u = b!"Group" then b!"Group" else b!"XObject")
      | o => if hashable o then .ok b!"XObject" else .error .typeError
    else .ok (if t = b!"ObjectStream" then b!"ObjectStream" else if t = b!"CMap" then b!"CMap" else if t = b!"Metadata" then b!"Metadata" else b!"StreamBasedObject")
  | o => if hashable o then .ok b!"StreamBasedObject" else .error .typeError

mutual
/-- `obj_factory(doc, obj)`, types/objects.py:126-139, on a parsed object; ArrayBasedObject.__init__ (62-69) builds the elements. -/
def factory {σ : Type} (loc : Locator σ) : Nat → Obj → DM σ Val
  | 0, _ => DM.pure (.error .diverges)
  | fuel + 1, o =>
    match o with
    | .arr xs => (DM.mapM (build loc fuel []) xs).bind fun vs => DM.pure (.ok (.arr vs))
    | .dict es => DM.pure ((dictClass es).map fun c => .dict c es)
    | .stream d data => DM.pure ((streamClass d).map fun c => .stream c d data)
    | o => DM.pure (.ok (.atom o))

/-- `build(obj, visited, lazy=True)`, document.py:64-107, on a parsed object. `lazy=False`, which nothing in the package uses, is
the matter of `Model/Eager.lean`. -/
def build {σ : Type} (loc : Locator σ) : Nat → List Key → Obj → DM σ Val
  | 0, _, _ => DM.pure (.error .diverges)
  | fuel + 1, visited, o =>
    match o with
    | .ref n g =>
      if (n, g) ∈ visited then DM.pure (.ok (.atom o))
      else (loc n g).bind fun x => (factory loc fuel x).bind fun v =>
        match v with
        | .arr vs => (DM.mapM (rebuild loc fuel ((n, g) :: visited)) vs).bind fun vs => DM.pure (.ok (.arr vs))
        | v => DM.pure (.ok v)
    | .arr xs => (DM.mapM (build loc fuel visited) xs).bind fun vs => DM.pure (.ok (.arr vs))
    | o => factory loc fuel o

/-- The same on an element of an ArrayBasedObject, which has been built before (document.py:92-93): a dictionary or stream gives a copy of
the same class. -/
def rebuild {σ : Type} (loc : Locator σ) : Nat → List Key → Val → DM σ Val
  | 0, _, _ => DM.pure (.error .diverges)
  | fuel + 1, visited, v =>
    match v with
    | .atom o => build loc fuel visited o
    | .arr vs => (DM.mapM (rebuild loc fuel visited) vs).bind fun vs => DM.pure (.ok (.arr vs))
    | v => DM.pure (.ok v)
end

/-- `obj.get(key)` and `obj.key` of a DictBasedObject, types/objects.py:80-98: KeyError gives None, also when it comes from building the
value. The cache is a matter of `Model/Lazy.lean`. -/
def entry {σ : Type} (loc : Locator σ) (fuel : Nat) (es : List (Bytes × Obj)) (k : Bytes) : DM σ Val :=
  match dictGet es k with
  | none => DM.pure (.ok (.atom .null))
  | some o => fun s =>
    match build loc fuel [] o s with
    | (.error .keyError, s1) => (.ok (.atom .null), s1)
    | r => r

/-- `node.key`: dictionaries as above; streams by StreamBasedObject.__getattr__ (types/objects.py:52-58); other values have no such
attribute. -/
def attr {σ : Type} (loc : Locator σ) (fuel : Nat) (v : Val) (k : Bytes) : DM σ Val :=
  match v with
  | .dict _ es => entry loc fuel es k
  | .stream _ d _ =>
    match dictGet d k with
    | none => DM.pure (.ok (.atom .null))
    | some o => build loc fuel [] o
  | _ => DM.pure (.error .attributeError)

/-- `isinstance(child, Page)` -/
def isPage : Val → Bool
  | .dict (some c) _ => c == b!"Page"
  | _ => false

/-- What a generator yields: the items, the exception which ends it, and the state. -/
abbrev Gen (σ α : Type) := σ → List α × Option Exc × σ

/-- Iteration over `node.Kids`: a list; empty strings and dictionaries have no items; items of other strings and keys of dictionaries are
strings and numbers, without Kids. -/
def kidsOf : Val → Res (List Val)
  | .arr vs => .ok vs
  | .dict _ es => if es = [] then .ok [] else .error .attributeError
  | .stream _ _ _ => .error .keyError
  | .atom o =>
    match o with
    | .name s | .str s | .hex s => if s = [] then .ok [] else .error .attributeError
    | _ => .error .typeError

/-- One after the other: the second runs if the first ends without an exception. -/
def Gen.seq {σ α : Type} (a b : Gen σ α) : Gen σ α := fun s =>
  match a s with
  | (xs, some e, s1) => (xs, some e, s1)
  | (xs, none, s1) =>
    match b s1 with
    | (ys, e, s2) => (xs ++ ys, e, s2)

/-- `for x in xs: …` -/
def Gen.forEach {σ α β : Type} (f : β → Gen σ α) : List β → Gen σ α
  | [] => fun s => ([], none, s)
  | x :: xs => Gen.seq (f x) (Gen.forEach f xs)

/-- `if node is None: node = self`, types/objects.py:169-170 -/
def orSelf (root : Val) : Val → Val
  | .atom .null => root
  | v => v

/-- `PageTreeNode.pages`, types/objects.py:163-178: a child which is None restarts at the node itself. -/
def pages {σ : Type} (loc : Locator σ) (root : Val) : Nat → Val → Gen σ Val
  | 0, _ => fun s => ([], some .diverges, s)
  | fuel + 1, node =>
    fun s =>
      match attr loc fuel (orSelf root node) b!"Kids" s with
      | (.error e, s1) => ([], some e, s1)
      | (.ok v, s1) =>
        match kidsOf v with
        | .error e => ([], some e, s1)
        | .ok kids => Gen.forEach (fun child => if isPage child then fun s => ([child], none, s) else pages loc root fuel child) kids s1

/-- `PDFDocument.pages`, document.py:140-146: the attribute `pages` of something else than a PageTreeNode is not callable. -/
def docPages {σ : Type} (loc : Locator σ) (fuel : Nat) (root : Val) : Gen σ Val := fun s =>
  match attr loc fuel root b!"Pages" s with
  | (.error e, s1) => ([], some e, s1)
  | (.ok (.dict (some c) es), s1) =>
    if c = b!"Pages" then pages loc (.dict (some c) es) fuel (.dict (some c) es) s1 else ([], some .typeError, s1)
  | (.ok (.dict none _), s1) | (.ok (.stream _ _ _), s1) => ([], some .typeError, s1)
  | (.ok _, s1) => ([], some .attributeError, s1)

/-- `obj_by_ref(self.trailer.root)`, document.py:44, 112-114, types/filestructure.py:29-31: only a reference has `num`. -/
def docRoot {σ : Type} (loc : Locator σ) (fuel : Nat) (trailer : List (Bytes × Obj)) : DM σ Val :=
  match dictGet trailer b!"Root" with
  | none => DM.pure (.error .keyError)
  | some (.ref n g) => (loc n g).bind fun o => factory loc fuel o
  | some _ => DM.pure (.error .attributeError)

/-- `PDFDocument(fobj, password)`, document.py:26-44: what the parser knows after opening, and the catalog. `secure` stands for the branch
of encrypted documents (`Model/Security.lean`). -/
def openDocument (filtered : List (Bytes × Obj) → Bytes → Res Bytes) (secure : Opened → Obj → Res Opened) (clamps : Bool) (fuel : Nat)
    (file : Bytes) : Res (Opened × Val) :=
  match openDoc filtered clamps fuel file with
  | .error e => .error e
  | .ok p =>
    match (if truthy ((dictGet p.trailer b!"Encrypt").getD .null) then secure p ((dictGet p.trailer b!"Encrypt").getD .null) else .ok p) with
    | .error e => .error e
    | .ok p =>
      match docRoot (locate p.env fuel) fuel p.trailer p.st with
      | (.error e, _) => .error e
      | (.ok root, s) => .ok ({ p with st := s }, root)

/-! ### Resources -/

/-- `bool(value)` -/
def truthyVal : Val → Bool
  | .atom o => truthy o
  | .arr vs => !vs.isEmpty
  | .dict _ es => !es.isEmpty
  | .stream _ _ data => !data.isEmpty

/-- The stack of Resources of a node and its ancestors, resources.py:29-38: the page first. -/
def resourceStack {σ : Type} (loc : Locator σ) : Nat → Val → List Val → DM σ (List Val)
  | 0, _, _ => DM.pure (.error .diverges)
  | fuel + 1, node, stack =>
    (attr loc fuel node b!"Resources").bind fun r =>
      let stack := if truthyVal r then stack ++ [r] else stack
      (attr loc fuel node b!"Parent").bind fun p =>
        if truthyVal p then resourceStack loc fuel p stack else DM.pure (.ok stack)

/-- A category: a dictionary of named resources, or the set of ProcSet names. -/
inductive Category where
  | named (es : List (Bytes × Val))
  | procs (ns : List Bytes)

/-- `d[k] = v` and `d.get(k)` on an association list with unique keys. -/
def assocSet {α β : Type} [DecidableEq α] (k : α) (v : β) : List (α × β) → List (α × β)
  | [] => [(k, v)]
  | (k', v') :: es => if k' = k then (k, v) :: es else (k', v') :: assocSet k v es

/-- `isinstance(x, Name)` and `set.add`; otherwise `set.update(x)`: elements of a list of names; other values raise TypeError.
Simplification: strings, whose characters would be added, are treated like other values. -/
def addProc (ns : List Bytes) (v : Val) : Res (List Bytes) :=
  match v with
  | .atom (.name n) => .ok (ns ++ [n])
  | .arr vs => .ok (ns ++ vs.filterMap fun v => match v with | .atom (.name n) => some n | _ => none)
  | _ => .error .typeError

/-- `for pname in array` -/
def addProcs : List Bytes → List Val → Res (List Bytes)
  | ns, [] => .ok ns
  | ns, v :: vs =>
    match addProc ns v with
    | .error e => .error e
    | .ok ns => addProcs ns vs

/-- `items()` of a dictionary: each value is built, types/objects.py:108-109. A KeyError is not caught here. -/
def itemsOf {σ : Type} (loc : Locator σ) (fuel : Nat) (es : List (Bytes × Obj)) : DM σ (List (Bytes × Val)) :=
  DM.mapM (fun e => (build loc fuel [] e.2).bind fun v => DM.pure (.ok (e.1, v))) es

/-- One entry of a resource dictionary, resources.py:44-61. -/
def mergeEntry {σ : Type} (loc : Locator σ) (fuel : Nat) (kw : List (Bytes × Category)) (name : Bytes) (v : Val) : DM σ (List (Bytes × Category)) :=
  if truthyVal v = false then DM.pure (.ok kw)
  else
    match v with
    | .dict _ es =>
      (itemsOf loc fuel es).bind fun items =>
        match assoc name kw with
        | none => DM.pure (.ok (assocSet name (.named (items.foldl (fun acc e => assocSet e.1 e.2 acc) [])) kw))
        | some (.named old) => DM.pure (.ok (assocSet name (.named (items.foldl (fun acc e => assocSet e.1 e.2 acc) old)) kw))
        | some (.procs _) => DM.pure (.error .typeError)
    | .arr vs =>
      match assoc name kw with
      | none => DM.pure ((addProcs [] vs).map fun ns => assocSet name (.procs ns) kw)
      | some (.procs old) => DM.pure ((addProcs old vs).map fun ns => assocSet name (.procs ns) kw)
      | some (.named _) => DM.pure (.error .attributeError)
    | _ => DM.pure (.ok kw)

/-- `for entry, dict_or_array in res.items()` -/
def mergeEntries {σ : Type} (loc : Locator σ) (fuel : Nat) : List (Bytes × Val) → List (Bytes × Category) → DM σ (List (Bytes × Category))
  | [], kw => DM.pure (.ok kw)
  | (k, v) :: es, kw => (mergeEntry loc fuel kw k v).bind fun kw => mergeEntries loc fuel es kw

/-- `while resources_stack: …`: the stack from its top. -/
def mergeAll {σ : Type} (loc : Locator σ) (fuel : Nat) : List Val → List (Bytes × Category) → DM σ (List (Bytes × Category))
  | [], kw => DM.pure (.ok kw)
  | .dict _ es :: rs, kw => (itemsOf loc fuel es).bind fun items => (mergeEntries loc fuel items kw).bind fun kw => mergeAll loc fuel rs kw
  | .stream _ _ _ :: _, _ => DM.pure (.error .typeError)
  | _ :: _, _ => DM.pure (.error .attributeError)

/-- `Resources.from_page`, resources.py:24-63; `own` are the Resources of a form. -/
def fromPage {σ : Type} (loc : Locator σ) (fuel : Nat) (page : Val) (own : List Val) : DM σ (List (Bytes × Category)) :=
  (resourceStack loc fuel page own).bind fun stack => mergeAll loc fuel stack.reverse []

/-- `resources.ProcSet`, resources.py:19: a set of names; a missing category is empty. Simplification: a dictionary here is taken as no set. -/
def procsIn (kw : List (Bytes × Category)) (cat : Bytes) : List Bytes :=
  match assoc cat kw with
  | some (.procs ns) => ns
  | _ => []

/-- `resources.XObject.get(name)` and the like, resources.py:12-22: a missing category is empty. -/
def resource (kw : List (Bytes × Category)) (category name : Bytes) : Option Val :=
  match assoc category kw with
  | some (.named es) => assoc name es
  | _ => none

end PdfReader
