/-
  C143: the annotations of the viewer's current page.
-/
import Verif.Model.Annots
import Verif.Props.View
import Verif.Props.ViewPages
import Verif.Props.Classes
import Verif.Props.Walk

namespace PdfReader

open Spec

variable {filtered : List (Bytes × Obj) → Bytes → Res Bytes}

/-- The pages of a document, with what the viewer keeps of them. -/
theorem serves_annotations (builtin : Builtin) (predefined : Bytes → Option CMap) {secure : Nat → Opened → Obj → Res Opened} {clamps : Bool} {file v : Bytes}
    {dict : List (Bytes × Obj)} {c : Option Bytes} {catalog : List (Bytes × Obj)} {content : Spec.Content} (h : Serves filtered secure clamps file v dict c catalog content)
    (n g : Nat) (node : List (Bytes × Obj)) (ps : List (List (Bytes × Obj))) (hpages : dictGet catalog b!"Pages" = some (.ref n g))
    (hnode : content n g = some (.dict node)) (htype : dictGet node b!"Type" = some (.name b!"Pages")) (htree : PageTree content n g ps) :
    ∃ F, ∀ fuel, F ≤ fuel → ∃ doc, openDocument filtered (secure fuel) clamps fuel file = .ok (doc, .dict c catalog) ∧
      ∃ F', ∀ fuel', F' ≤ fuel' → ∃ pages s', docPages (locate doc.env fuel) fuel' (.dict c catalog) doc.st = (pages, none, s') ∧
        ∃ view, viewFile filtered builtin predefined (secure fuel) clamps fuel fuel' file = .ok view ∧
          ∀ w, Reached view w → ∃ (i : Nat) (page : List (Bytes × Obj)), w.number = i + 1 ∧ ps[i]? = some page ∧
            (∀ val, EntryIs content page b!"Annots" val → ∃ F'', ∀ fuel'', F'' ≤ fuel'' → ∀ history : List (Nat × Nat), (∀ k ∈ history, content k.1 k.2 ≠ none) →
              (w.annotations (locate doc.env fuel) fuel'' pages (asked doc.env fuel history s')).1 = .ok val) ∧
            (NoEntry page b!"Annots" → ∃ F'', ∀ fuel'', F'' ≤ fuel'' → ∀ history : List (Nat × Nat), (∀ k ∈ history, content k.1 k.2 ≠ none) →
              (w.annotations (locate doc.env fuel) fuel'' pages (asked doc.env fuel history s')).1 = .ok (.atom .null)) := by
  obtain ⟨F, hF⟩ := h
  refine ⟨F, fun fuel hf => ?_⟩
  obtain ⟨doc, e, _, _, I, hI, hd⟩ := hF fuel hf
  obtain ⟨F1, hF1⟩ := C46_order (hd fuel hf) c catalog n g ps hpages htree (fun es h => by
    rw [hnode] at h
    cases h
    exact htype)
  refine ⟨doc, e, F1, fun fuel' hf' => ?_⟩
  obtain ⟨s', hs', e'⟩ := hF1 fuel' hf' doc.st hI
  refine ⟨_, s', e', { pages := (ps.map asPage).map (pageInfo filtered builtin predefined (locate doc.env fuel) fuel' s'), fails := none }, ?_, fun w hw => ?_⟩
  · unfold viewFile
    rw [e]
    dsimp only
    unfold viewDoc
    rw [e']
  · have hb := base_reached hw
    obtain ⟨pg, hk⟩ := hb.current
    obtain ⟨i, hi, hp⟩ := hb.known _ _ hk
    simp only [List.getElem?_map] at hp
    cases hpi : ps[i]? with
    | none => rw [hpi] at hp; cases hp
    | some page =>
      have hann : ∀ fuel'', w.annotations (locate doc.env fuel) fuel'' (ps.map asPage) = attr (locate doc.env fuel) fuel'' (asPage page) b!"Annots" := by
        intro fuel''
        unfold Viewer.annotations
        rw [hk, show (w.number - 1).toNat = i by omega, List.getElem?_map, hpi]
        rfl
      refine ⟨i, page, hi, hpi, fun val hv => ?_, fun hv => ?_⟩
      · obtain ⟨F2, h2⟩ := C75_entries (hd fuel hf) (some b!"Page") page b!"Annots" val hv
        refine ⟨F2, fun fuel'' hf'' history hh => ?_⟩
        rw [hann]
        exact (h2 fuel'' hf'' _ (asked_keeps (hd fuel hf) history _ hs' hh)).1
      · obtain ⟨F2, h2⟩ := C75_missing (I := I) (loc := locate doc.env fuel) (some b!"Page") page b!"Annots" hv
        refine ⟨F2, fun fuel'' hf'' history hh => ?_⟩
        rw [hann]
        exact (h2 fuel'' hf'' _ (asked_keeps (hd fuel hf) history _ hs' hh)).1

/-- C143: in a viewer on a file with a page tree, after any calls, failing ones included, `annotations` is the entry Annots of the page with the viewer's current number,
with references resolved; None if the page has none. It does not matter which objects were resolved before. -/
theorem C143_annotations (builtin : Builtin) (predefined : Bytes → Option CMap) (secure : Opened → Obj → Res Opened) (clamps : Bool) (file v : Bytes) (k off : Nat)
    (r : Revision) (rs : List Revision) (content : Spec.Content) (hh : HeaderAt file v k) (hs : StartsAt file off) (hb : clamps = true ∨ 1024 ≤ file.length)
    (hsec : SectionsFrom (fun d raw data => filtered d raw = .ok data) file off (r :: rs))
    (hc : Spec.Holds (fun d raw data => filtered d raw = .ok data) AsIs file k (r :: rs) content) (henc : NoEntry r.dict b!"Encrypt")
    (a b : Nat) (catalog : List (Bytes × Obj)) (c : Option Bytes) (hroot : dictGet r.dict b!"Root" = some (.ref a b))
    (hcat : content a b = some (.dict catalog)) (hcls : DictKind catalog c)
    (n g : Nat) (node : List (Bytes × Obj)) (ps : List (List (Bytes × Obj))) (hpages : dictGet catalog b!"Pages" = some (.ref n g))
    (hnode : content n g = some (.dict node)) (htype : dictGet node b!"Type" = some (.name b!"Pages")) (htree : PageTree content n g ps) :
    ∃ F, ∀ fuel, F ≤ fuel → ∃ doc, openDocument filtered secure clamps fuel file = .ok (doc, .dict c catalog) ∧
      ∃ F', ∀ fuel', F' ≤ fuel' → ∃ pages s', docPages (locate doc.env fuel) fuel' (.dict c catalog) doc.st = (pages, none, s') ∧
        ∃ view, viewFile filtered builtin predefined secure clamps fuel fuel' file = .ok view ∧
          ∀ w, Reached view w → ∃ (i : Nat) (page : List (Bytes × Obj)), w.number = i + 1 ∧ ps[i]? = some page ∧
            (∀ val, EntryIs content page b!"Annots" val → ∃ F'', ∀ fuel'', F'' ≤ fuel'' → ∀ history : List (Nat × Nat), (∀ k ∈ history, content k.1 k.2 ≠ none) →
              (w.annotations (locate doc.env fuel) fuel'' pages (asked doc.env fuel history s')).1 = .ok val) ∧
            (NoEntry page b!"Annots" → ∃ F'', ∀ fuel'', F'' ≤ fuel'' → ∀ history : List (Nat × Nat), (∀ k ∈ history, content k.1 k.2 ≠ none) →
              (w.annotations (locate doc.env fuel) fuel'' pages (asked doc.env fuel history s')).1 = .ok (.atom .null)) :=
  serves_annotations builtin predefined (openDocument_opens secure clamps file v k off r rs content hh hs hb hsec hc henc a b catalog c hroot hcat hcls) n g node ps hpages
    hnode htype htree

/-- C143: what the entry Annots says: a list of annotation objects, given in the page or referred to, as a whole or one by one. -/
theorem C143_list (content : Spec.Content) (page : List (Bytes × Obj)) (a : Obj) (items : List (Obj × List (Bytes × Obj))) (he : dictGet page b!"Annots" = some a)
    (ha : Stands content a (.arr (items.map (·.1)))) (h : ∀ i ∈ items, Typed content i.1 i.2 b!"Annot") :
    EntryIs content page b!"Annots" (.arr (items.map fun i => .dict (some b!"Annot") i.2)) := by
  refine ⟨a, he, stands_reads ha (fun _ _ h => by cases h) ?_⟩
  clear ha he
  induction items with
  | nil => exact .nil
  | cons i is ih => exact .cons _ _ _ _ (typed_reads (h i (by simp)) (by decide) (by decide) (by decide)) (ih fun j hj => h j (by simp [hj]))

/-! ### A file with annotations -/

/-- Two pages, the first with two annotations. -/
def linkedDraft : Draft :=
  { items := [⟨1, 0, .dict [(b!"Type", .name b!"Catalog"), (b!"Pages", .ref 2 0)]⟩,
      ⟨2, 0, .dict [(b!"Type", .name b!"Pages"), (b!"Kids", .arr [.ref 3 0, .ref 4 0]), (b!"Count", .int 2)]⟩,
      ⟨3, 0, .dict [(b!"Type", .name b!"Page"), (b!"Parent", .ref 2 0), (b!"Contents", .ref 7 0), (b!"Annots", .ref 5 0)]⟩,
      ⟨4, 0, .dict [(b!"Type", .name b!"Page"), (b!"Parent", .ref 2 0), (b!"Contents", .ref 7 0)]⟩,
      ⟨5, 0, .arr [.ref 6 0, .dict [(b!"Type", .name b!"Annot"), (b!"Subtype", .name b!"Text")]]⟩,
      ⟨6, 0, .dict [(b!"Type", .name b!"Annot"), (b!"Subtype", .name b!"Link")]⟩,
      ⟨7, 0, .stream [(b!"Length", .int 5)] b!"BT ET"⟩],
    trailer := [(b!"Size", .int 8), (b!"Root", .ref 1 0)] }

theorem linked_ok : linkedDraft.Ok := by
  refine ⟨by decide, by simp [linkedDraft, WritableValue, Writable, WritableEnts, WritableItems], ?_, by decide, by decide, by decide,
    by simp [linkedDraft, Writable, WritableEnts], by decide⟩
  intro i hi e data h v hv
  simp [linkedDraft] at hi
  rcases hi with rfl | rfl | rfl | rfl | rfl | rfl | rfl <;> simp at h
  rw [← h.1] at hv
  simp at hv

/-- The premises can be met: this file serves its content, has a page tree, and the annotations of its first page are two. -/
theorem linked_serves (secure : Opened → Obj → Res Opened) : Serves filtered (fun _ => secure) true (writeFile [linkedDraft]) b!"1.7" (linkedDraft.dict none) (some b!"Catalog")
      [(b!"Type", .name b!"Catalog"), (b!"Pages", .ref 2 0)] (contentOf [linkedDraft]) := by
  have hok : ∀ d ∈ [] ++ [linkedDraft], d.Ok := by intro d hd; rw [List.nil_append, List.mem_singleton] at hd; subst hd; exact linked_ok
  have hd : [] ++ [linkedDraft] ≠ [] := by simp
  have hsec := sections_of _ hd hok (by decide +kernel) (fun d raw data => filtered d raw = .ok data)
  have hc := holds_of (decoded := fun d raw data => filtered d raw = .ok data) _ hok
  exact openDocument_opens secure true (writeFile ([] ++ [linkedDraft])) _ 0 _ _ _ _ (header_at _ hd) (starts_at _ hd) (Or.inl rfl) hsec hc
    (Or.inl rfl) 1 0 _ _ rfl rfl (.typed _ rfl (by decide))

theorem linked_tree : PageTree (contentOf [linkedDraft]) 2 0
    [[(b!"Type", .name b!"Page"), (b!"Parent", .ref 2 0), (b!"Contents", .ref 7 0), (b!"Annots", .ref 5 0)], [(b!"Type", .name b!"Page"), (b!"Parent", .ref 2 0), (b!"Contents", .ref 7 0)]] :=
  .node 2 0 _ [(3, 0), (4, 0)] _ rfl (by decide) (.direct _ [(3, 0), (4, 0)] rfl)
    (.cons 3 0 _ [_] [_] (.page 3 0 _ rfl rfl) (.cons 4 0 _ [_] [] (.page 4 0 _ rfl rfl) .nil))

example : EntryIs (contentOf [linkedDraft]) [(b!"Type", .name b!"Page"), (b!"Parent", .ref 2 0), (b!"Contents", .ref 7 0), (b!"Annots", .ref 5 0)] b!"Annots"
    (.arr [.dict (some b!"Annot") [(b!"Type", .name b!"Annot"), (b!"Subtype", .name b!"Link")], .dict (some b!"Annot") [(b!"Type", .name b!"Annot"), (b!"Subtype", .name b!"Text")]]) :=
  C143_list _ _ (.ref 5 0) [(.ref 6 0, [(b!"Type", .name b!"Annot"), (b!"Subtype", .name b!"Link")]), (.dict [(b!"Type", .name b!"Annot"), (b!"Subtype", .name b!"Text")], [(b!"Type", .name b!"Annot"), (b!"Subtype", .name b!"Text")])]
    rfl (.inr ⟨5, 0, rfl, rfl⟩) (fun i hi => by
      simp only [List.mem_cons, List.not_mem_nil, or_false] at hi
      rcases hi with rfl | rfl
      · exact ⟨.inr ⟨6, 0, rfl, rfl⟩, rfl⟩
      · exact ⟨.inl rfl, rfl⟩)

/-- What the user of the viewer sees on page `n` of that file. -/
def annotsOn (n : Int) : Res Val :=
  match openDocument (fun _ b => .ok b) (fun p _ => .ok p) true 30 (writeFile [linkedDraft]), viewFile (fun _ b => .ok b) (fun _ => none) (fun _ => none) (fun p _ => .ok p) true 30 30 (writeFile [linkedDraft]) with
  | .ok (doc, root), .ok view =>
    match openViewer view with
    | .ok w =>
      match w.navigate view n, docPages (locate doc.env 30) 30 root doc.st with
      | (_, w), (pages, _, s) => (w.annotations (locate doc.env 30) 30 pages s).1
    | .error e => .error e
  | _, _ => .error .parser

example : annotsOn 1 = .ok (.arr [.dict (some b!"Annot") [(b!"Type", .name b!"Annot"), (b!"Subtype", .name b!"Link")],
      .dict (some b!"Annot") [(b!"Type", .name b!"Annot"), (b!"Subtype", .name b!"Text")]]) ∧
    annotsOn 2 = .ok (.atom .null) ∧ annotsOn 3 = annotsOn 1 := by decide +kernel

end PdfReader
