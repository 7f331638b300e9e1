/-
  C102: building objects with `lazy=False`.
-/
import Verif.Lemmas.Eager
import Verif.Props.File

namespace PdfReader

open Spec

variable {σ : Type} {I : σ → Prop} {loc : Locator σ}

/-- C102, for objects which do not contain themselves: `build(obj, lazy=False)` ends, and every reference in the result, at any depth, is
replaced by the object it refers to. Objects may be referred to more than once. Objects which contain themselves are missing:
see `C102_counterexample`. -/
theorem C102_resolves_partial {store : Store} (hd : Delivers loc I store) (o : Obj) (d : Deep) (h : Whole store o d) :
    ∃ F, ∀ fuel, F ≤ fuel → Gives I (deepObj loc fuel [] o) d := by
  obtain ⟨F, hF⟩ := (whole_deep hd h).1
  exact ⟨F, fun fuel hf => hF fuel hf [] (fun k hk => by cases hk)⟩

/-- C102: the same for an object which the document has handed out before, like the value of an attribute. -/
theorem C102_handed_out_partial {store : Store} (hd : Delivers loc I store) (o : Obj) (v : Val) (d : Deep) (hv : Reads store o v) (h : Whole store o d) :
    ∃ F, ∀ fuel, F ≤ fuel → Gives I (deepVal loc fuel [] v) d := by
  obtain ⟨F, hF⟩ := (whole_deep hd h).2 v hv
  exact ⟨F, fun fuel hf => hF fuel hf [] (fun m hm k hk => by cases hk)⟩

/-- C102 is false for dictionaries which contain themselves: if each of some dictionaries holds another of them, in an entry which is a
dictionary, an array or a reference to one, then building none of them ends with a value. The references which were visited are not known
where the entries are read. -/
theorem C102_endless {store : Store} (hd : Delivers loc I store) (hn : NoDangling store) (P : Nat → Nat → Prop)
    (hP : ∀ n g, P n g → ∃ es, store n g = some (.dict es) ∧ ∃ n' g' es', P n' g' ∧ store n' g' = some (.dict es') ∧ ∃ e ∈ es, Within store es' e.2)
    (n g : Nat) (hp : P n g) (fuel : Nat) (s : σ) (hs : I s) (d : Deep) : (deepObj loc fuel [] (.ref n g) s).1 ≠ .ok d := by
  obtain ⟨es, he, _⟩ := hP n g hp
  refine deepObj_endless hd (stays_of hd hn) (fun es => ∃ n g, P n g ∧ store n g = some (.dict es)) ?_ fuel n g es he ⟨n, g, hp, he⟩ s hs d
  rintro es ⟨n, g, hp, he⟩
  refine ⟨refsIn_dict (hn n g _ he), ?_⟩
  obtain ⟨es1, he1, n', g', es', hp', hes', hw⟩ := hP n g hp
  rw [he] at he1
  cases he1
  exact ⟨es', ⟨n', g', hp', hes'⟩, hw⟩

theorem dictGet_entry : ∀ {es : List (Bytes × Obj)} {k : Bytes} {o : Obj}, dictGet es k = some o → ∃ e ∈ es, e.2 = o
  | [], k, o, h => by cases h
  | (k', v) :: es, k, o, h => by
    unfold dictGet at h
    by_cases hk : k' = k
    · rw [if_pos hk] at h
      cases h
      exact ⟨(k', v), by simp, rfl⟩
    · rw [if_neg hk] at h
      obtain ⟨e, he, ho⟩ := dictGet_entry h
      exact ⟨e, by simp [he], ho⟩

/-- The Kids of a node hold the page. -/
theorem kids_within {store : Store} {node : List (Bytes × Obj)} {kids : List (Nat × Nat)} (hk : KidsAre store node kids) {n g : Nat}
    {page : List (Bytes × Obj)} (hm : (n, g) ∈ kids) (hp : store n g = some (.dict page)) : ∃ e ∈ node, Within store page e.2 := by
  have hw : Within store page (.arr (kids.map fun k => .ref k.1 k.2)) :=
    .item _ (.ref n g) (List.mem_map.2 ⟨(n, g), hm, rfl⟩) (.ref n g _ hp (by simp) .here)
  cases hk with
  | direct _ h =>
    obtain ⟨e, he, ho⟩ := dictGet_entry h
    exact ⟨e, he, by rw [ho]; exact hw⟩
  | indirect a b _ h h' =>
    obtain ⟨e, he, ho⟩ := dictGet_entry h
    exact ⟨e, he, by rw [ho]; exact .ref a b _ h' (by simp) hw⟩

/-- C102 is false for the pages of every document: a page refers to its parent, and the Kids of the parent to the page. Whatever the bound on
the depth, `build(page, lazy=False)` returns nothing. -/
theorem C102_counterexample {store : Store} (hd : Delivers loc I store) (hn : NoDangling store) (n g a b : Nat) (page node : List (Bytes × Obj))
    (kids : List (Nat × Nat)) (hp : store n g = some (.dict page)) (hpar : dictGet page b!"Parent" = some (.ref a b)) (hnode : store a b = some (.dict node))
    (hk : KidsAre store node kids) (hm : (n, g) ∈ kids) (fuel : Nat) (s : σ) (hs : I s) (d : Deep) :
    (deepVal loc fuel [] (asPage page) s).1 ≠ .ok d ∧ (deepObj loc fuel [] (.ref n g) s).1 ≠ .ok d := by
  have hup : ∃ e ∈ page, Within store node e.2 := by
    obtain ⟨e, he, ho⟩ := dictGet_entry hpar
    exact ⟨e, he, by rw [ho]; exact .ref a b _ hnode (by simp) .here⟩
  have hP : ∀ es, (es = page ∨ es = node) → (∀ e ∈ es, RefsIn (fun n g => store n g ≠ none) e.2) ∧ ∃ es', (es' = page ∨ es' = node) ∧
      ∃ e ∈ es, Within store es' e.2 := by
    rintro es (rfl | rfl)
    · exact ⟨refsIn_dict (hn n g _ hp), node, Or.inr rfl, hup⟩
    · exact ⟨refsIn_dict (hn a b _ hnode), page, Or.inl rfl, kids_within hk hm hp⟩
  exact ⟨deepVal_endless hd (stays_of hd hn) _ hP fuel [] _ page (Or.inl rfl) (.here _) (.dict _ _ (hP page (Or.inl rfl)).1) s hs d,
    deepObj_endless hd (stays_of hd hn) _ hP fuel n g page hp (Or.inl rfl) s hs d⟩

variable {filtered : List (Bytes × Obj) → Bytes → Res Bytes}

/-- C102 in a document which was opened, whatever objects were resolved before. -/
theorem C102_opened_partial (secure : Opened → Obj → Res Opened) (clamps : Bool) (file v : Bytes) (k off : Nat) (r : Revision) (rs : List Revision)
    (content : Content) (hh : HeaderAt file v k) (hs : StartsAt file off) (hb : clamps = true ∨ 1024 ≤ file.length)
    (hsec : SectionsFrom (fun d raw data => filtered d raw = .ok data) file off (r :: rs))
    (hc : Holds (fun d raw data => filtered d raw = .ok data) AsIs file k (r :: rs) content) (henc : NoEntry r.dict b!"Encrypt")
    (a b : Nat) (catalog : List (Bytes × Obj)) (c : Option Bytes) (hroot : dictGet r.dict b!"Root" = some (.ref a b))
    (hcat : content a b = some (.dict catalog)) (hcls : DictKind catalog c) (o : Obj) (d : Deep) (hw : Whole content o d) :
    ∃ F, ∀ fuel, F ≤ fuel → ∃ doc, openDocument filtered secure clamps fuel file = .ok (doc, .dict c catalog) ∧
      ∀ history : List (Nat × Nat), (∀ k ∈ history, content k.1 k.2 ≠ none) →
        ∃ F', ∀ fuel', F' ≤ fuel' → (deepObj (locate doc.env fuel) fuel' [] o (asked doc.env fuel history doc.st)).1 = .ok d := by
  obtain ⟨F, hF⟩ := openDocument_opens secure clamps file v k off r rs content hh hs hb hsec hc henc a b catalog c hroot hcat hcls
  refine ⟨F, fun fuel hf => ?_⟩
  obtain ⟨doc, e, _, _, I, hI, hd⟩ := hF fuel hf
  refine ⟨doc, e, fun history hh => ?_⟩
  obtain ⟨F', hF'⟩ := C102_resolves_partial (hd fuel hf) o d hw
  exact ⟨F', fun fuel' hf' => (hF' fuel' hf' _ (asked_keeps (hd fuel hf) history _ hI hh)).1⟩

/-- C102 is false for the pages of a document which was opened. -/
theorem C102_pages_counterexample (secure : Opened → Obj → Res Opened) (clamps : Bool) (file v : Bytes) (k off : Nat) (r : Revision) (rs : List Revision)
    (content : Content) (hh : HeaderAt file v k) (hs : StartsAt file off) (hb : clamps = true ∨ 1024 ≤ file.length)
    (hsec : SectionsFrom (fun d raw data => filtered d raw = .ok data) file off (r :: rs))
    (hc : Holds (fun d raw data => filtered d raw = .ok data) AsIs file k (r :: rs) content) (henc : NoEntry r.dict b!"Encrypt")
    (a b : Nat) (catalog : List (Bytes × Obj)) (c : Option Bytes) (hroot : dictGet r.dict b!"Root" = some (.ref a b))
    (hcat : content a b = some (.dict catalog)) (hcls : DictKind catalog c) (hn : NoDangling content)
    (n g pn pg : Nat) (page node : List (Bytes × Obj)) (kids : List (Nat × Nat)) (hp : content n g = some (.dict page))
    (hpar : dictGet page b!"Parent" = some (.ref pn pg)) (hnode : content pn pg = some (.dict node)) (hk : KidsAre content node kids) (hm : (n, g) ∈ kids) :
    ∃ F, ∀ fuel, F ≤ fuel → ∃ doc, openDocument filtered secure clamps fuel file = .ok (doc, .dict c catalog) ∧
      ∀ fuel' d, (deepVal (locate doc.env fuel) fuel' [] (asPage page) doc.st).1 ≠ .ok d := by
  obtain ⟨F, hF⟩ := openDocument_opens secure clamps file v k off r rs content hh hs hb hsec hc henc a b catalog c hroot hcat hcls
  refine ⟨F, fun fuel hf => ?_⟩
  obtain ⟨doc, e, _, _, I, hI, hd⟩ := hF fuel hf
  exact ⟨doc, e, fun fuel' d => (C102_counterexample (hd fuel hf) hn n g pn pg page node kids hp hpar hnode hk hm fuel' doc.st hI d).1⟩

/-! ### Examples -/

/-- A font which is used twice, by an array given by a reference, with a stream. -/
def shelf : Store
  | 1, 0 => some (.dict [(b!"Fonts", .ref 2 0), (b!"Data", .ref 4 0)])
  | 2, 0 => some (.arr [.ref 3 0, .int 7, .ref 3 0])
  | 3, 0 => some (.dict [(b!"Type", .name b!"Font"), (b!"ToUnicode", .ref 4 0)])
  | 4, 0 => some (.stream [(b!"Length", .ref 5 0)] b!"abc")
  | 5, 0 => some (.int 3)
  | _, _ => none

def shelfStream : Deep := .stream b!"StreamBasedObject" [(b!"Length", .atom (.int 3))] b!"abc"

def shelfFont : Deep := .dict (some b!"Font") [(b!"Type", .atom (.name b!"Font")), (b!"ToUnicode", shelfStream)]

def shelfWhole : Deep := .dict none [(b!"Fonts", .arr [shelfFont, .atom (.int 7), shelfFont]), (b!"Data", shelfStream)]

theorem shelf_stream : Whole shelf (.ref 4 0) shelfStream :=
  .ref 4 0 _ _ rfl (by simp) (.stream _ _ _ _ (.plain rfl) (.cons _ _ _ _ _ (.ref 5 0 _ _ rfl (by simp) (.atom _ trivial)) .nil))

theorem shelf_font : Whole shelf (.ref 3 0) shelfFont :=
  .ref 3 0 _ _ rfl (by simp) (.dict _ _ _ (.typed _ rfl (by decide)) (.cons _ _ _ _ _ (.atom _ trivial) (.cons _ _ _ _ _ shelf_stream .nil)))

theorem shelf_whole : Whole shelf (.ref 1 0) shelfWhole :=
  .ref 1 0 _ _ rfl (by simp) (.dict _ _ _ (.untyped rfl) (.cons _ _ _ _ _ (.ref 2 0 _ _ rfl (by simp) (.arr _ _
    (.cons _ _ _ _ shelf_font (.cons _ _ _ _ (.atom _ trivial) (.cons _ _ _ _ shelf_font .nil))))) (.cons _ _ _ _ _ shelf_stream .nil)))

example : ∃ F, ∀ fuel, F ≤ fuel → Gives (fun _ => True) (deepObj (sampleLoc shelf) fuel [] (.ref 1 0)) shelfWhole :=
  C102_resolves_partial (sample_delivers shelf) _ _ shelf_whole

/-- The result as computed. -/
example : (deepObj (sampleLoc shelf) 20 [] (.ref 1 0) ()).1 = .ok shelfWhole := rfl

theorem sample_noDangling : NoDangling sample := by
  intro n g o h
  unfold sample at h
  split at h <;> first | cases h | skip
  all_goals
    repeat' first
      | exact .ref _ _ (by decide)
      | exact .atom _ trivial
      | refine .dict _ ?_
      | refine .arr _ ?_
      | (intro e he; simp only [List.mem_cons, List.not_mem_nil, or_false] at he; rcases he with rfl | rfl | rfl)
      | (intro e he; simp only [List.mem_cons, List.not_mem_nil, or_false] at he; rcases he with rfl | rfl)
      | (intro e he; simp only [List.mem_cons, List.not_mem_nil, or_false] at he; cases he)

/-- The pages of the sample document of `Props/Objects.lean`. -/
example (fuel : Nat) (d : Deep) : (deepVal (sampleLoc sample) fuel [] (asPage [(b!"Type", .name b!"Page"), (b!"Parent", .ref 4 0)]) ()).1 ≠ .ok d :=
  (C102_counterexample (sample_delivers sample) sample_noDangling 5 0 4 0 _ _ [(5, 0)] rfl rfl rfl (.indirect _ 7 0 _ rfl rfl) (by simp) fuel () trivial d).1

/-- The references which were visited help in the dictionaries of streams: a stream may refer to itself. -/
def selfStream : Store
  | 1, 0 => some (.stream [(b!"Length", .int 0), (b!"Self", .ref 1 0)] [])
  | _, _ => none

example : (deepObj (sampleLoc selfStream) 20 [] (.ref 1 0) ()).1 =
    .ok (.stream b!"StreamBasedObject" [(b!"Length", .atom (.int 0)), (b!"Self", .atom (.ref 1 0))] []) := rfl

/-- A dictionary and streams whose Type or Subtype is an array are refused. -/
def badTypes : Store
  | 1, 0 => some (.dict [(b!"Type", .arr [.name b!"Page"])])
  | 2, 0 => some (.stream [(b!"Type", .arr []), (b!"Length", .int 0)] [])
  | 3, 0 => some (.stream [(b!"Type", .name b!"XObject"), (b!"Subtype", .arr []), (b!"Length", .int 0)] [])
  | _, _ => none

example : [1, 2, 3].map (fun n => (deepObj (sampleLoc badTypes) 20 [] (.ref n 0) ()).1.isOk) = [false, false, false] := rfl

end PdfReader
