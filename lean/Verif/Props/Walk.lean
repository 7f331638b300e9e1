/-
  C107: paths of accesses. C108: inheritable attributes of pages. C109: attributes and keys of streams. C110: where the bytes come from.
-/
import Verif.Spec.Walk
import Verif.Lemmas.View
import Verif.Props.File

namespace PdfReader

open Spec

/-! ### C107 -/

section
variable {σ : Type} {loc : Locator σ} {I : σ → Prop}

/-- The computation ends with this result. -/
def EndsWith {α : Type} (I : σ → Prop) (m : DM σ α) (r : Res α) : Prop := ∀ s, I s → (m s).1 = r ∧ I (m s).2

theorem endsWith_bind {α β : Type} {m : DM σ α} {a : α} {f : α → DM σ β} {r : Res β} (h1 : Gives I m a) (h2 : EndsWith I (f a) r) : EndsWith I (m.bind f) r := by
  intro s hs
  obtain ⟨e1, i1⟩ := h1 s hs
  have : m.bind f s = f a (m s).2 := by
    unfold DM.bind
    generalize m s = r at e1
    obtain ⟨r1, r2⟩ := r
    cases e1
    rfl
  rw [this]
  exact h2 _ i1

theorem endsWith_fail {α β : Type} {m : DM σ α} {e : Exc} {f : α → DM σ β} (h1 : EndsWith I m (.error e)) : EndsWith I (m.bind f) (.error e) := by
  intro s hs
  obtain ⟨e1, i1⟩ := h1 s hs
  unfold DM.bind
  generalize m s = r at e1 i1
  obtain ⟨r1, r2⟩ := r
  cases e1
  exact ⟨rfl, i1⟩

theorem endsWith_pure {α : Type} (r : Res α) : EndsWith I (DM.pure r : DM σ α) r := fun _ h => ⟨rfl, h⟩

theorem item_reads {store : Store} (hd : Delivers loc I store) {es : List (Bytes × Obj)} {k : Bytes} {v : Val} (h : EntryIs store es k v) (c : Option Bytes) :
    Ev fun f => Gives I (item loc f (.dict c es) k) v := by
  obtain ⟨o, h1, h2⟩ := h
  refine (reads_build hd h2).1.mono fun f hf => ?_
  unfold item
  dsimp only
  rw [h1]
  exact hf

theorem walks_ends {store : Store} (hd : Delivers loc I store) {v : Val} {p : List Access} {r : Res Val} (h : Walks store v p r) :
    Ev fun f => EndsWith I (walk loc f v p) r := by
  induction h with
  | done v => exact .all fun f => endsWith_pure _
  | attr c es k v p r _ h1 _ ih => exact ((entry_reads hd h1).and ih).mono fun f hf => endsWith_bind hf.1 hf.2
  | noAttr c es k p r _ h1 _ ih => exact ((entry_none h1).and ih).mono fun f hf => endsWith_bind hf.1 hf.2
  | streamAttr cls d raw k v p r _ h1 _ ih => exact ((streamEntry_reads hd h1 cls raw).and ih).mono fun f hf => endsWith_bind hf.1 hf.2
  | noStreamAttr cls d raw k p r _ h1 _ ih => exact ((streamEntry_none (I := I) (loc := loc) h1 cls raw).and ih).mono fun f hf => endsWith_bind hf.1 hf.2
  | otherAttr o k p _ => exact .all fun f => endsWith_fail (endsWith_pure _)
  | arrayAttr vs k p _ => exact .all fun f => endsWith_fail (endsWith_pure _)
  | key c es k v p r h1 _ ih => exact ((item_reads hd h1 c).and ih).mono fun f hf => endsWith_bind hf.1 hf.2
  | noKey c es k p h1 =>
    refine .all fun f => endsWith_fail ?_
    unfold access item
    dsimp only
    rw [h1]
    exact endsWith_pure _
  | noStreamKey cls d raw k p h1 =>
    refine .all fun f => endsWith_fail ?_
    unfold access item
    dsimp only
    rw [h1]
    exact endsWith_pure _
  | index vs i v p r h1 _ ih =>
    refine ih.mono fun f hf => endsWith_bind (a := v) ?_ hf
    unfold access atIndex
    dsimp only
    rw [h1]
    exact gives_pure _
  | noIndex vs i p h1 =>
    refine .all fun f => endsWith_fail ?_
    unfold access atIndex
    dsimp only
    rw [List.getElem?_eq_none h1]
    exact endsWith_pure _
end

variable {filtered : List (Bytes × Obj) → Bytes → Res Bytes}

/-- Paths in a document which opens. -/
theorem serves_walks {secure : Nat → Opened → Obj → Res Opened} {clamps : Bool} {file v : Bytes} {dict : List (Bytes × Obj)} {c : Option Bytes}
    {catalog : List (Bytes × Obj)} {content : Spec.Content} (h : Serves filtered secure clamps file v dict c catalog content) :
    ∃ F, ∀ fuel, F ≤ fuel → ∃ doc, openDocument filtered (secure fuel) clamps fuel file = .ok (doc, .dict c catalog) ∧
      ∀ v p r, Walks content v p r → ∃ F', ∀ fuel', F' ≤ fuel' → ∀ history : List (Nat × Nat), (∀ k ∈ history, content k.1 k.2 ≠ none) →
        (walk (locate doc.env fuel) fuel' v p (asked doc.env fuel history doc.st)).1 = r := by
  obtain ⟨F, hF⟩ := h
  refine ⟨F, fun fuel hf => ?_⟩
  obtain ⟨doc, e, _, _, I, hI, hd⟩ := hF fuel hf
  refine ⟨doc, e, fun v p r hw => ?_⟩
  obtain ⟨F', h2⟩ := walks_ends (hd fuel hf) hw
  exact ⟨F', fun fuel' hf' history hh => (h2 fuel' hf' _ (asked_keeps (hd fuel hf) history _ hI hh)).1⟩

/-- C107: in a document which was opened, a path of attributes, keys and indices from the catalog, or from any object of the document, leads where the
objects of the file say, through references of any kind, or fails where they do; whatever objects were resolved before. -/
theorem C107_walk (secure : Opened → Obj → Res Opened) (clamps : Bool) (file v : Bytes) (k off : Nat) (r : Revision) (rs : List Revision)
    (content : Spec.Content) (hh : HeaderAt file v k) (hs : StartsAt file off) (hb : clamps = true ∨ 1024 ≤ file.length)
    (hsec : SectionsFrom (fun d raw data => filtered d raw = .ok data) file off (r :: rs))
    (hc : Holds (fun d raw data => filtered d raw = .ok data) AsIs file k (r :: rs) content) (henc : NoEntry r.dict b!"Encrypt")
    (a b : Nat) (catalog : List (Bytes × Obj)) (c : Option Bytes) (hroot : dictGet r.dict b!"Root" = some (.ref a b))
    (hcat : content a b = some (.dict catalog)) (hcls : DictKind catalog c) :
    ∃ F, ∀ fuel, F ≤ fuel → ∃ doc, openDocument filtered secure clamps fuel file = .ok (doc, .dict c catalog) ∧
      ∀ v p r, Walks content v p r → ∃ F', ∀ fuel', F' ≤ fuel' → ∀ history : List (Nat × Nat), (∀ k ∈ history, content k.1 k.2 ≠ none) →
        (walk (locate doc.env fuel) fuel' v p (asked doc.env fuel history doc.st)).1 = r :=
  serves_walks (openDocument_opens secure clamps file v k off r rs content hh hs hb hsec hc henc a b catalog c hroot hcat hcls)

/-- A document with two pages, the first with a size by reference, the second with that of the tree. -/
def sizedDraft : Draft :=
  { items := [⟨1, 0, .dict [(b!"Type", .name b!"Catalog"), (b!"Pages", .ref 2 0)]⟩,
      ⟨2, 0, .dict [(b!"Type", .name b!"Pages"), (b!"Kids", .arr [.ref 3 0, .ref 4 0]), (b!"Count", .int 2),
        (b!"MediaBox", .arr [.int 0, .int 0, .int 612, .int 792])]⟩,
      ⟨3, 0, .dict [(b!"Type", .name b!"Page"), (b!"Parent", .ref 2 0), (b!"MediaBox", .ref 5 0), (b!"Thumb", .ref 7 0)]⟩,
      ⟨4, 0, .dict [(b!"Type", .name b!"Page"), (b!"Parent", .ref 2 0)]⟩,
      ⟨5, 0, .arr [.int 0, .int 0, .ref 6 0, .int 200]⟩,
      ⟨6, 0, .int 100⟩,
      ⟨7, 0, .stream [(b!"Length", .int 3), (b!"Width", .ref 6 0)] b!"abc"⟩],
    trailer := [(b!"Size", .int 8), (b!"Root", .ref 1 0)] }

theorem sized_ok : sizedDraft.Ok := by
  refine ⟨by decide, by simp [sizedDraft, WritableValue, Writable, WritableEnts, WritableItems], ?_, by decide, by decide, by decide,
    by simp [sizedDraft, Writable, WritableEnts], by decide⟩
  intro i hi e data h v hv
  simp [sizedDraft] at hi
  rcases hi with rfl | rfl | rfl | rfl | rfl | rfl | rfl <;> simp at h
  rw [← h.1] at hv
  simp at hv

theorem sized_serves (filtered : List (Bytes × Obj) → Bytes → Res Bytes) (secure : Opened → Obj → Res Opened) :
    Serves filtered (fun _ => secure) true (writeFile [sizedDraft]) b!"1.7" (sizedDraft.dict none) (some b!"Catalog")
      [(b!"Type", .name b!"Catalog"), (b!"Pages", .ref 2 0)] (contentOf [sizedDraft]) := by
  have hok : ∀ d ∈ [] ++ [sizedDraft], d.Ok := by intro d hd; rw [List.nil_append, List.mem_singleton] at hd; subst hd; exact sized_ok
  have hd : [] ++ [sizedDraft] ≠ [] := by simp
  have hsec := sections_of _ hd hok (by decide +kernel) (fun d raw data => filtered d raw = .ok data)
  have hc := holds_of (decoded := fun d raw data => filtered d raw = .ok data) _ hok
  exact openDocument_opens secure true (writeFile ([] ++ [sizedDraft])) _ 0 _ _ _ _ (header_at _ hd) (starts_at _ hd) (Or.inl rfl) hsec hc
    (Or.inl rfl) 1 0 _ _ rfl rfl (.typed _ rfl (by decide))

/-- The hypotheses of C107 are met: `doc.root.Pages.Kids[0].MediaBox[2]` is 100, `doc.root["Pages"].Kids[1]["MediaBox"]` is a KeyError. -/
example (secure : Opened → Obj → Res Opened) : ∃ F, ∀ fuel, F ≤ fuel → ∃ doc root, openDocument plain secure true fuel (writeFile [sizedDraft]) = .ok (doc, root) ∧
    ∃ F', ∀ fuel', F' ≤ fuel' →
      (walk (locate doc.env fuel) fuel' root [.attr b!"Pages", .attr b!"Kids", .index 0, .attr b!"MediaBox", .index 2] (asked doc.env fuel [(4, 0), (5, 0)] doc.st)).1 =
        .ok (.atom (.int 100)) ∧
      (walk (locate doc.env fuel) fuel' root [.key b!"Pages", .attr b!"Kids", .index 1, .key b!"MediaBox"] (asked doc.env fuel [] doc.st)).1 = .error .keyError := by
  obtain ⟨F, hF⟩ := serves_walks (sized_serves plain secure)
  refine ⟨F, fun fuel hf => ?_⟩
  obtain ⟨doc, e, h⟩ := hF fuel hf
  refine ⟨doc, _, e, ?_⟩
  have hp : Reads (contentOf [sizedDraft]) (.ref 2 0) (.dict (some b!"Pages") _) := .ref 2 0 _ _ rfl (by simp) (.dict _ _ (.typed _ rfl (by decide)))
  have hk : EntryIs (contentOf [sizedDraft]) [(b!"Type", .name b!"Pages"), (b!"Kids", .arr [.ref 3 0, .ref 4 0]), (b!"Count", .int 2),
        (b!"MediaBox", .arr [.int 0, .int 0, .int 612, .int 792])] b!"Kids" (.arr [.dict (some b!"Page") _, .dict (some b!"Page") _]) :=
    ⟨_, rfl, .cons _ _ _ _ (.ref 3 0 _ _ rfl (by simp) (.dict _ _ (.typed _ rfl (by decide)))) (.cons _ _ _ _ (.ref 4 0 _ _ rfl (by simp) (.dict _ _ (.typed _ rfl (by decide)))) .nil)⟩
  obtain ⟨F1, h1⟩ := h _ _ _ (.attr (some b!"Catalog") [(b!"Type", .name b!"Catalog"), (b!"Pages", .ref 2 0)] b!"Pages" _ [.attr b!"Kids", .index 0, .attr b!"MediaBox", .index 2] _ ⟨80, _, rfl, by decide, by decide⟩ ⟨_, rfl, hp⟩
    (.attr _ _ _ _ _ _ ⟨75, _, rfl, by decide, by decide⟩ hk (.index _ 0 _ _ _ rfl (.attr _ _ _ (.arr [.atom (.int 0), .atom (.int 0), .atom (.int 100), .atom (.int 200)]) _ _
      ⟨77, _, rfl, by decide, by decide⟩
      ⟨_, rfl, .ref 5 0 _ _ rfl (by simp) (.cons _ _ _ _ (.atom _ trivial) (.cons _ _ _ _ (.atom _ trivial) (.cons _ _ _ _ (.ref 6 0 _ _ rfl (by simp) (.atom _ trivial))
        (.cons _ _ _ _ (.atom _ trivial) .nil))))⟩ (.index _ 2 _ _ _ rfl (.done _))))))
  obtain ⟨F2, h2⟩ := h _ _ _ (.key (some b!"Catalog") [(b!"Type", .name b!"Catalog"), (b!"Pages", .ref 2 0)] b!"Pages" _ [.attr b!"Kids", .index 1, .key b!"MediaBox"] _ ⟨_, rfl, hp⟩
    (.attr _ _ _ _ _ _ ⟨75, _, rfl, by decide, by decide⟩ hk (.index _ 1 _ _ _ rfl (.noKey _ _ _ [] rfl))))
  exact ⟨F1 + F2, fun fuel' hf' => ⟨h1 fuel' (by omega) _ (by decide +kernel), h2 fuel' (by omega) _ (by simp)⟩⟩

/-! ### C108 -/

/-- The ways up: `page.k`, `page.Parent.k`, `page.Parent.Parent.k`, … -/
def upward (n : Nat) (k : Bytes) : List Access := List.replicate n (.attr b!"Parent") ++ [.attr k]

theorem inherited_walks {store : Store} {k : Bytes} (hk : Capital k) {es : List (Bytes × Obj)} {v : Val} (h : Inherited store k es v) :
    ∃ n, (∀ c, Walks store (.dict c es) (upward n k) (.ok v)) ∧ ∀ m, m < n → ∀ c, Walks store (.dict c es) (upward m k) (.ok (.atom .null)) := by
  induction h with
  | own es v h hv => exact ⟨0, fun c => .attr c es k v [] _ hk h (.done _), fun m hm => absurd hm (by omega)⟩
  | up es ps c v h1 h2 _ ih =>
    obtain ⟨n, h3, h4⟩ := ih
    refine ⟨n + 1, fun c' => .attr c' es b!"Parent" _ _ _ ⟨80, _, rfl, by decide, by decide⟩ h2 (h3 c), fun m hm c' => ?_⟩
    cases m with
    | zero => exact .noAttr c' es k [] _ hk h1 (.done _)
    | succ m => exact .attr c' es b!"Parent" _ _ _ ⟨80, _, rfl, by decide, by decide⟩ h2 (h4 m (by omega) c)

/-- C108 as far as it holds: an attribute which the page has itself is its value; one which it inherits is found by the user who climbs to the first of
`page`, `page.Parent`, `page.Parent.Parent`, … whose attribute is not None. Missing: `page.k` itself is None for inherited attributes. -/
theorem C108_inherited_partial (secure : Opened → Obj → Res Opened) (clamps : Bool) (file v : Bytes) (k off : Nat) (r : Revision) (rs : List Revision)
    (content : Spec.Content) (hh : HeaderAt file v k) (hs : StartsAt file off) (hb : clamps = true ∨ 1024 ≤ file.length)
    (hsec : SectionsFrom (fun d raw data => filtered d raw = .ok data) file off (r :: rs))
    (hc : Holds (fun d raw data => filtered d raw = .ok data) AsIs file k (r :: rs) content) (henc : NoEntry r.dict b!"Encrypt")
    (a b : Nat) (catalog : List (Bytes × Obj)) (c : Option Bytes) (hroot : dictGet r.dict b!"Root" = some (.ref a b))
    (hcat : content a b = some (.dict catalog)) (hcls : DictKind catalog c) :
    ∃ F, ∀ fuel, F ≤ fuel → ∃ doc, openDocument filtered secure clamps fuel file = .ok (doc, .dict c catalog) ∧
      ∀ key page v, Capital key → Inherited content key page v → ∃ n F', ∀ fuel', F' ≤ fuel' → ∀ history : List (Nat × Nat), (∀ k ∈ history, content k.1 k.2 ≠ none) →
        (walk (locate doc.env fuel) fuel' (asPage page) (upward n key) (asked doc.env fuel history doc.st)).1 = .ok v ∧
        (∀ m, m < n → (walk (locate doc.env fuel) fuel' (asPage page) (upward m key) (asked doc.env fuel history doc.st)).1 = .ok (.atom .null)) ∧
        (EntryIs content page key v → v ≠ .atom .null → (walk (locate doc.env fuel) fuel' (asPage page) [.attr key] (asked doc.env fuel history doc.st)).1 = .ok v) := by
  obtain ⟨F, hF⟩ := C107_walk secure clamps file v k off r rs content hh hs hb hsec hc henc a b catalog c hroot hcat hcls
  refine ⟨F, fun fuel hf => ?_⟩
  obtain ⟨doc, e, h⟩ := hF fuel hf
  refine ⟨doc, e, fun key page v hk hi => ?_⟩
  obtain ⟨n, h1, h2⟩ := inherited_walks hk hi
  obtain ⟨F1, e1⟩ := h _ _ _ (h1 (some b!"Page"))
  have h3 : ∃ F2, ∀ fuel', F2 ≤ fuel' → ∀ m, m < n → ∀ history : List (Nat × Nat), (∀ k ∈ history, content k.1 k.2 ≠ none) →
      (walk (locate doc.env fuel) fuel' (asPage page) (upward m key) (asked doc.env fuel history doc.st)).1 = .ok (.atom .null) := by
    clear e1 h1
    induction n with
    | zero => exact ⟨0, fun _ _ m hm => absurd hm (by omega)⟩
    | succ n ih =>
      obtain ⟨F2, hF2⟩ := ih (fun m hm => h2 m (by omega))
      obtain ⟨F3, hF3⟩ := h _ _ _ (h2 n (by omega) (some b!"Page"))
      refine ⟨F2 + F3, fun fuel' hf' m hm history hh => ?_⟩
      by_cases he : m = n
      · subst he; exact hF3 fuel' (by omega) history hh
      · exact hF2 fuel' (by omega) m (by omega) history hh
  obtain ⟨F2, e2⟩ := h3
  have h4 : ∃ F4, ∀ fuel', F4 ≤ fuel' → EntryIs content page key v → ∀ history : List (Nat × Nat), (∀ k ∈ history, content k.1 k.2 ≠ none) →
      (walk (locate doc.env fuel) fuel' (asPage page) [.attr key] (asked doc.env fuel history doc.st)).1 = .ok v := by
    by_cases he : EntryIs content page key v
    · obtain ⟨F4, e4⟩ := h _ _ _ (.attr (some b!"Page") page key v [] _ hk he (.done _))
      exact ⟨F4, fun fuel' hf' _ history hh => e4 fuel' hf' history hh⟩
    · exact ⟨0, fun _ _ h => absurd h he⟩
  obtain ⟨F4, e4⟩ := h4
  exact ⟨n, F1 + F2 + F4, fun fuel' hf' history hh => ⟨e1 fuel' (by omega) history hh, fun m hm => e2 fuel' (by omega) m hm history hh,
    fun he _ => e4 fuel' (by omega) he history hh⟩⟩

/-- C108 is false: the second page of the document inherits its MediaBox, but its attribute MediaBox is None; that of its parent is the value. -/
theorem C108_counterexample (secure : Opened → Obj → Res Opened) :
    ∃ page box, Inherited (contentOf [sizedDraft]) b!"MediaBox" page box ∧ box ≠ .atom .null ∧
    ∃ F, ∀ fuel, F ≤ fuel → ∃ doc root, openDocument plain secure true fuel (writeFile [sizedDraft]) = .ok (doc, root) ∧ ∃ F', ∀ fuel', F' ≤ fuel' →
      (∃ first s', docPages (locate doc.env fuel) fuel' root doc.st = ([first, asPage page], none, s')) ∧
      (walk (locate doc.env fuel) fuel' (asPage page) [.attr b!"MediaBox"] doc.st).1 = .ok (.atom .null) ∧
      (walk (locate doc.env fuel) fuel' (asPage page) [.attr b!"Parent", .attr b!"MediaBox"] doc.st).1 = .ok box := by
  have hn : contentOf [sizedDraft] 2 0 = some (.dict [(b!"Type", .name b!"Pages"), (b!"Kids", .arr [.ref 3 0, .ref 4 0]), (b!"Count", .int 2),
        (b!"MediaBox", .arr [.int 0, .int 0, .int 612, .int 792])]) := rfl
  have hbox : EntryIs (contentOf [sizedDraft]) [(b!"Type", .name b!"Pages"), (b!"Kids", .arr [.ref 3 0, .ref 4 0]), (b!"Count", .int 2),
        (b!"MediaBox", .arr [.int 0, .int 0, .int 612, .int 792])] b!"MediaBox" (.arr [.atom (.int 0), .atom (.int 0), .atom (.int 612), .atom (.int 792)]) :=
    ⟨_, rfl, .cons _ _ _ _ (.atom _ trivial) (.cons _ _ _ _ (.atom _ trivial) (.cons _ _ _ _ (.atom _ trivial) (.cons _ _ _ _ (.atom _ trivial) .nil)))⟩
  have hparent : EntryIs (contentOf [sizedDraft]) [(b!"Type", .name b!"Page"), (b!"Parent", .ref 2 0)] b!"Parent" (.dict (some b!"Pages") _) :=
    ⟨_, rfl, .ref 2 0 _ _ hn (by simp) (.dict _ _ (.typed _ rfl (by decide)))⟩
  refine ⟨[(b!"Type", .name b!"Page"), (b!"Parent", .ref 2 0)], _, .up _ _ _ _ (Or.inl rfl) hparent (.own _ _ hbox (by intro e; cases e)), (by intro e; cases e), ?_⟩
  obtain ⟨F, hF⟩ := serves_walks (sized_serves plain secure)
  obtain ⟨G, hG⟩ := serves_pages (sized_serves plain secure) 2 0 _ [_, _] rfl hn rfl
    (.node 2 0 _ [(3, 0), (4, 0)] _ rfl rfl (.direct _ _ rfl) (.cons 3 0 _ [_] _ (.page 3 0 _ rfl rfl) (.cons 4 0 _ [_] _ (.page 4 0 _ rfl rfl) .nil)))
  refine ⟨F + G, fun fuel hf => ?_⟩
  obtain ⟨doc, e, h⟩ := hF fuel (by omega)
  obtain ⟨doc', e', F', hp⟩ := hG fuel (by omega)
  rw [e] at e'
  cases e'
  obtain ⟨F1, h1⟩ := h _ _ _ (.noAttr (some b!"Page") [(b!"Type", .name b!"Page"), (b!"Parent", .ref 2 0)] b!"MediaBox" [] _ ⟨77, _, rfl, by decide, by decide⟩ (Or.inl rfl) (.done _))
  obtain ⟨F2, h2⟩ := h _ _ _ (.attr (some b!"Page") _ b!"Parent" _ [.attr b!"MediaBox"] _ ⟨80, _, rfl, by decide, by decide⟩ hparent
    (.attr _ _ _ _ _ _ ⟨77, _, rfl, by decide, by decide⟩ hbox (.done _)))
  refine ⟨doc, _, e, F' + F1 + F2, fun fuel' hf' => ⟨?_, h1 fuel' (by omega) [] (by simp), h2 fuel' (by omega) [] (by simp)⟩⟩
  obtain ⟨s', hs'⟩ := hp fuel' (by omega)
  exact ⟨_, s', hs'⟩

/-! ### C109 -/

/-- C109 as far as it holds: in dictionaries of a document the key gives what the attribute gives, if there is such an entry. -/
theorem C109_dictionaries_partial {secure : Opened → Obj → Res Opened} {clamps : Bool} {file v : Bytes} {dict : List (Bytes × Obj)} {c : Option Bytes}
    {catalog : List (Bytes × Obj)} {content : Spec.Content} (h : Serves filtered (fun _ => secure) clamps file v dict c catalog content) :
    ∃ F, ∀ fuel, F ≤ fuel → ∃ doc, openDocument filtered secure clamps fuel file = .ok (doc, .dict c catalog) ∧
      ∀ c' es key w, EntryIs content es key w → Capital key → ∃ F', ∀ fuel', F' ≤ fuel' → ∀ history : List (Nat × Nat), (∀ k ∈ history, content k.1 k.2 ≠ none) →
        (walk (locate doc.env fuel) fuel' (.dict c' es) [.attr key] (asked doc.env fuel history doc.st)).1 = .ok w ∧
        (walk (locate doc.env fuel) fuel' (.dict c' es) [.key key] (asked doc.env fuel history doc.st)).1 = .ok w := by
  obtain ⟨F, hF⟩ := serves_walks h
  refine ⟨F, fun fuel hf => ?_⟩
  obtain ⟨doc, e, h⟩ := hF fuel hf
  refine ⟨doc, e, fun c' es key w hw hk => ?_⟩
  obtain ⟨F1, h1⟩ := h _ _ _ (.attr c' es key w [] _ hk hw (.done _))
  obtain ⟨F2, h2⟩ := h _ _ _ (.key c' es key w [] _ hw (.done _))
  exact ⟨F1 + F2, fun fuel' hf' history hh => ⟨h1 fuel' (by omega) history hh, h2 fuel' (by omega) history hh⟩⟩

/-- C109 is false for streams: `page.Thumb.Width` is 100, but `page.Thumb["Width"]` is the reference `6 0 R`. -/
theorem C109_streams_counterexample (secure : Opened → Obj → Res Opened) :
    ∃ F, ∀ fuel, F ≤ fuel → ∃ doc root, openDocument plain secure true fuel (writeFile [sizedDraft]) = .ok (doc, root) ∧ ∃ F', ∀ fuel', F' ≤ fuel' →
      (walk (locate doc.env fuel) fuel' root [.attr b!"Pages", .attr b!"Kids", .index 0, .attr b!"Thumb", .attr b!"Width"] doc.st).1 = .ok (.atom (.int 100)) ∧
      (walk (locate doc.env fuel) fuel' root [.attr b!"Pages", .attr b!"Kids", .index 0, .attr b!"Thumb", .key b!"Width"] doc.st).1 = .ok (.atom (.ref 6 0)) := by
  have h0 := sized_serves plain secure
  obtain ⟨F, hF⟩ := h0
  refine ⟨F, fun fuel hf => ?_⟩
  obtain ⟨doc, e, _, _, I, hI, hd⟩ := hF fuel hf
  have hp : Reads (contentOf [sizedDraft]) (.ref 2 0) (.dict (some b!"Pages") _) := .ref 2 0 _ _ rfl (by simp) (.dict _ _ (.typed _ rfl (by decide)))
  have hk : EntryIs (contentOf [sizedDraft]) [(b!"Type", .name b!"Pages"), (b!"Kids", .arr [.ref 3 0, .ref 4 0]), (b!"Count", .int 2),
        (b!"MediaBox", .arr [.int 0, .int 0, .int 612, .int 792])] b!"Kids" (.arr [.dict (some b!"Page") _, .dict (some b!"Page") _]) :=
    ⟨_, rfl, .cons _ _ _ _ (.ref 3 0 _ _ rfl (by simp) (.dict _ _ (.typed _ rfl (by decide)))) (.cons _ _ _ _ (.ref 4 0 _ _ rfl (by simp) (.dict _ _ (.typed _ rfl (by decide)))) .nil)⟩
  have ht : EntryIs (contentOf [sizedDraft]) [(b!"Type", .name b!"Page"), (b!"Parent", .ref 2 0), (b!"MediaBox", .ref 5 0), (b!"Thumb", .ref 7 0)] b!"Thumb"
      (.stream b!"StreamBasedObject" [(b!"Length", .int 3), (b!"Width", .ref 6 0)] b!"abc") :=
    ⟨_, rfl, .ref 7 0 _ _ rfl (by simp) (.stream _ _ _ (.plain rfl))⟩
  have to (p : List Access) (r : Res Val) (h : Ev fun f => EndsWith I (walk (locate doc.env fuel) f (.stream b!"StreamBasedObject" [(b!"Length", .int 3), (b!"Width", .ref 6 0)] b!"abc") p) r) :
      Ev fun f => EndsWith I (walk (locate doc.env fuel) f (.dict (some b!"Catalog") [(b!"Type", .name b!"Catalog"), (b!"Pages", .ref 2 0)])
        (.attr b!"Pages" :: .attr b!"Kids" :: .index 0 :: .attr b!"Thumb" :: p)) r := by
    have e1 : EntryIs (contentOf [sizedDraft]) [(b!"Type", .name b!"Catalog"), (b!"Pages", .ref 2 0)] b!"Pages" (.dict (some b!"Pages") _) := ⟨_, rfl, hp⟩
    refine ((entry_reads (hd fuel hf) e1).and ((entry_reads (hd fuel hf) hk).and ((entry_reads (hd fuel hf) ht).and h))).mono fun f hf => ?_
    exact endsWith_bind hf.1 (endsWith_bind hf.2.1 (endsWith_bind (gives_pure _) (endsWith_bind hf.2.2.1 hf.2.2.2)))
  obtain ⟨F1, h1⟩ := to [.attr b!"Width"] _ (walks_ends (hd fuel hf) (.streamAttr _ _ _ _ _ [] _ ⟨87, _, rfl, by decide, by decide⟩
    ⟨_, rfl, .ref 6 0 _ _ rfl (by simp) (.atom (.int 100) trivial)⟩ (.done _)))
  obtain ⟨F2, h2⟩ := to [.key b!"Width"] (.ok (.atom (.ref 6 0))) (.all fun f => endsWith_bind (gives_pure _) (endsWith_pure _))
  exact ⟨doc, _, e, F1 + F2, fun fuel' hf' => ⟨(h1 fuel' (by omega) _ hI).1, (h2 fuel' (by omega) _ hI).1⟩⟩

/-! ### C110 -/

theorem xrefOffset_large {file : Bytes} (h : 1024 ≤ file.length) : xrefOffset false file = xrefOffset true file := by
  unfold xrefOffset
  rw [show seekEof false file = seekEof true file by unfold seekEof; rw [if_neg (show ¬(file.length < 1024 ∧ false = false) by omega), if_neg (show ¬(file.length < 1024 ∧ true = false) by simp)]]

theorem openDoc_large {file : Bytes} (h : 1024 ≤ file.length) (fuel : Nat) : openDoc filtered false fuel file = openDoc filtered true fuel file := by
  unfold openDoc openReg
  simp only [xrefOffset_large h]

/-- C110 as far as it holds: for files of at least 1024 bytes, what opening the document and its viewer gives, and all they deliver afterwards, is
the same for a file on disk as for the same bytes in memory. -/
theorem C110_large_partial (builtin : Builtin) (predefined : Bytes → Option CMap) (secure : Opened → Obj → Res Opened) (fuel fuel' : Nat) (file : Bytes) (h : 1024 ≤ file.length) :
    openDocument filtered secure false fuel file = openDocument filtered secure true fuel file ∧
    viewFile filtered builtin predefined secure false fuel fuel' file = viewFile filtered builtin predefined secure true fuel fuel' file := by
  have h1 : openDocument filtered secure false fuel file = openDocument filtered secure true fuel file := by
    unfold openDocument
    rw [openDoc_large h]
  refine ⟨h1, ?_⟩
  unfold viewFile
  rw [h1]

/-- C110 is false for smaller files: the document with two pages opens from memory, but from a file on disk it fails with OSError. -/
theorem C110_small_counterexample (secure : Opened → Obj → Res Opened) :
    (∃ F, ∀ fuel, F ≤ fuel → ∃ doc root, openDocument plain secure true fuel (writeFile [sizedDraft]) = .ok (doc, root)) ∧
    ∀ fuel, openDocument plain secure false fuel (writeFile [sizedDraft]) = .error .osError := by
  constructor
  · obtain ⟨F, hF⟩ := sized_serves plain secure
    refine ⟨F, fun fuel hf => ?_⟩
    obtain ⟨doc, e, _⟩ := hF fuel hf
    exact ⟨doc, _, e⟩
  · intro fuel
    have h1 : pdfHeader (writeFile [sizedDraft]) = .ok (b!"1.7", 0) := by decide +kernel
    have h2 : xrefOffset false (writeFile [sizedDraft]) = .error .osError := by
      unfold xrefOffset seekEof
      rw [if_pos ⟨by decide +kernel, rfl⟩]
    unfold openDocument openDoc
    rw [h1]
    dsimp only
    rw [h2]

/-- There are files of both sizes: the hypothesis of C110 is met by the document with a stream of 1024 bytes. -/
example : 1024 ≤ (writeFile [{ sizedDraft with items := ⟨8, 0, .stream [(b!"Length", .int 1024)] (List.replicate 1024 32)⟩ :: sizedDraft.items }]).length := by decide +kernel

end PdfReader
