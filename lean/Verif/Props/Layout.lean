/-
  C131: what a document gives depends on its objects, not on how they are laid out in the file.
-/
import Verif.Spec.Layout
import Verif.Lemmas.Alike
import Verif.Props.TextFile

namespace PdfReader

open Spec

section
variable {σ τ : Type} {I : σ → Prop} {J : τ → Prop} {loc : Locator σ} {loc' : Locator τ} {D : Nat → Nat → Prop}

theorem ask_agrees (hl : Alike I J loc loc' D) (fuel : Nat) {root : Val} (hr : RefsInV D root) (q : Query) {s : σ} {t : τ} (hs : I s) (ht : J t) :
    (q.ask loc fuel root s).1 = (q.ask loc' fuel root t).1 ∧ I (q.ask loc fuel root s).2 ∧ J (q.ask loc' fuel root t).2 := by
  cases q with
  | walk p =>
    obtain ⟨e, i, j, _⟩ := walk_agrees hl fuel p hr s t hs ht
    unfold Query.ask
    dsimp only
    rw [e]
    exact ⟨rfl, i, j⟩
  | pages =>
    obtain ⟨e1, e2, i, j, _⟩ := docPages_agree hl fuel hr s t hs ht
    unfold Query.ask
    dsimp only
    rw [e1, e2]
    exact ⟨rfl, i, j⟩
  | resources n =>
    obtain ⟨e1, e2, i, j, hp⟩ := docPages_agree hl fuel hr s t hs ht
    unfold Query.ask
    dsimp only
    generalize docPages loc fuel root s = r at e1 e2 i hp
    generalize docPages loc' fuel root t = r' at e1 e2 j
    obtain ⟨ps, ex, s1⟩ := r
    obtain ⟨ps', ex', t1⟩ := r'
    cases e1
    dsimp only
    cases hn : ps[n]? with
    | none => exact ⟨rfl, i, j⟩
    | some p =>
      obtain ⟨e, i, j, _⟩ := fromPage_agrees hl fuel (hp p (List.mem_of_getElem? hn)) (own := []) (by simp) s1 t1 i j
      dsimp only
      rw [e]
      exact ⟨rfl, i, j⟩

theorem answers_agree (hl : Alike I J loc loc' D) (fuel : Nat) {root : Val} (hr : RefsInV D root) : ∀ (qs : List Query) {s : σ} {t : τ}, I s → J t →
    answers loc fuel root s qs = answers loc' fuel root t qs
  | [], _, _, _, _ => rfl
  | q :: qs, s, t, hs, ht => by
    obtain ⟨e, i, j⟩ := ask_agrees hl fuel hr q hs ht
    unfold answers
    dsimp only
    rw [e, answers_agree hl fuel hr qs i j]
end

theorem observe_same {D : Nat → Nat → Prop} {doc doc' : DocPages} (hd : DocsAlike D doc doc') : ∀ (cs : List Call) {v w : Viewer}, Twins D v w →
    observe doc v cs = observe doc' w cs
  | [], _, _, _ => rfl
  | c :: cs, v, w, h => by
    obtain ⟨e, t⟩ := both_call hd c h
    unfold observe
    dsimp only
    rw [e, t.number, t.current, observe_same hd cs t]

theorem open_same {D : Nat → Nat → Prop} {doc doc' : DocPages} (hd : DocsAlike D doc doc') (cs : List Call) :
    ((openViewer doc).map fun v => observe doc v cs) = (openViewer doc').map fun v => observe doc' v cs := by
  obtain ⟨e, t⟩ := both_navigate hd 1 (v := { heap := [{}], canvas := 0, number := 1 }) (w := { heap := [{}], canvas := 0, number := 1 })
    ⟨rfl, rfl, rfl, rfl, rfl, rfl, fun e he => (by cases he), rfl, fun e he => (by cases he), rfl, .nil, rfl⟩
  unfold openViewer
  generalize Viewer.navigate doc 1 _ = r at e t
  generalize Viewer.navigate doc' 1 _ = r' at e t
  obtain ⟨r, v⟩ := r
  obtain ⟨r', w⟩ := r'
  dsimp only at e t
  subst e
  cases r with
  | error e => rfl
  | ok u =>
    show Except.ok _ = Except.ok _
    dsimp only
    rw [observe_same hd cs t]

section
variable {filtered : List (Bytes × Obj) → Bytes → Res Bytes} {secure secure' : Nat → Opened → Obj → Res Opened} {clamps clamps' : Bool} {file file' v v' : Bytes}
  {dict dict' : List (Bytes × Obj)} {c : Option Bytes} {catalog : List (Bytes × Obj)} {content content' store : Spec.Content}

theorem delivers_some {σ : Type} {loc : Locator σ} {I : σ → Prop} {content store : Spec.Content} (h : Delivers loc I content)
    (hs : ∀ n g o, store n g = some o → content n g = some o) : Delivers loc I store := fun n g o s hi ho => h n g o s hi (hs n g o ho)

/-- C131, documents: two files which have a catalog and objects in common, such that these refer to each other only. Whatever is asked, in whatever
order, the two documents give the same answers: the same values, or the same exceptions. -/
theorem C131_documents (h : Serves filtered secure clamps file v dict c catalog content) (h' : Serves filtered secure' clamps' file' v' dict' c catalog content')
    (hs : ∀ n g o, store n g = some o → content n g = some o ∧ content' n g = some o) (hn : NoDangling store)
    (hc : ∀ e ∈ catalog, RefsIn (fun n g => store n g ≠ none) e.2) :
    ∃ F, ∀ fuel, F ≤ fuel → ∀ fuel', F ≤ fuel' → ∃ doc doc', openDocument filtered (secure fuel) clamps fuel file = .ok (doc, .dict c catalog) ∧
      openDocument filtered (secure' fuel') clamps' fuel' file' = .ok (doc', .dict c catalog) ∧
      ∀ (depth : Nat) (qs : List Query), answers (locate doc.env fuel) depth (.dict c catalog) doc.st qs = answers (locate doc'.env fuel') depth (.dict c catalog) doc'.st qs := by
  obtain ⟨F, hF⟩ := h
  obtain ⟨F', hF'⟩ := h'
  refine ⟨F + F', fun fuel hf fuel' hf' => ?_⟩
  obtain ⟨doc, e, _, _, I, hI, hd⟩ := hF fuel (by omega)
  obtain ⟨doc', e', _, _, J, hJ, hd'⟩ := hF' fuel' (by omega)
  refine ⟨doc, doc', e, e', fun depth qs => ?_⟩
  exact answers_agree (delivers_alike (delivers_some (hd fuel (by omega)) fun n g o h => (hs n g o h).1)
    (delivers_some (hd' fuel' (by omega)) fun n g o h => (hs n g o h).2) hn) depth (.dict c catalog hc) qs hI hJ

theorem docs_alike (builtin : Builtin) (predefined : Bytes → Option CMap) {doc doc' : Opened} {fuel fuel' depth : Nat} {I J : St → Prop} {D : Nat → Nat → Prop}
    (hl : Alike I J (locate doc.env fuel) (locate doc'.env fuel') D) {root : Val} (hr : RefsInV D root) (hI : I doc.st) (hJ : J doc'.st) :
    DocsAlike D (viewDoc filtered builtin predefined fuel depth doc root) (viewDoc filtered builtin predefined fuel' depth doc' root) := by
  obtain ⟨e1, e2, i, j, hp⟩ := docPages_agree hl depth hr doc.st doc'.st hI hJ
  unfold viewDoc
  generalize docPages (locate doc.env fuel) depth root doc.st = r at e1 e2 i hp
  generalize docPages (locate doc'.env fuel') depth root doc'.st = r' at e1 e2 j
  obtain ⟨ps, ex, s1⟩ := r
  obtain ⟨ps', ex', t1⟩ := r'
  cases e1
  cases e2
  refine ⟨by simp, fun n pg pg' h1 h2 => ?_, rfl⟩
  dsimp only at h1 h2
  rw [List.getElem?_map] at h1 h2
  cases hk : ps[n]? with
  | none => rw [hk] at h1; cases h1
  | some p =>
    rw [hk] at h1 h2
    cases h1
    cases h2
    exact pageInfo_alike filtered builtin predefined hl depth (hp p (List.mem_of_getElem? hk)) i j

/-- C131, viewers: the same for viewers on the two files. Whatever is called, every call ends in the same way, on the same page and with the same
canvas, with all texts, images and forms. -/
theorem C131_viewers (builtin : Builtin) (predefined : Bytes → Option CMap) (h : Serves filtered secure clamps file v dict c catalog content)
    (h' : Serves filtered secure' clamps' file' v' dict' c catalog content')
    (hs : ∀ n g o, store n g = some o → content n g = some o ∧ content' n g = some o) (hn : NoDangling store)
    (hc : ∀ e ∈ catalog, RefsIn (fun n g => store n g ≠ none) e.2) :
    ∃ F, ∀ fuel, F ≤ fuel → ∀ fuel', F ≤ fuel' → ∀ depth, ∃ doc doc', viewFile filtered builtin predefined (secure fuel) clamps fuel depth file = .ok doc ∧
      viewFile filtered builtin predefined (secure' fuel') clamps' fuel' depth file' = .ok doc' ∧
      ∀ cs : List Call, ((openViewer doc).map fun v => observe doc v cs) = (openViewer doc').map fun v => observe doc' v cs := by
  obtain ⟨F, hF⟩ := h
  obtain ⟨F', hF'⟩ := h'
  refine ⟨F + F', fun fuel hf fuel' hf' depth => ?_⟩
  obtain ⟨doc, e, _, _, I, hI, hd⟩ := hF fuel (by omega)
  obtain ⟨doc', e', _, _, J, hJ, hd'⟩ := hF' fuel' (by omega)
  have hl := delivers_alike (delivers_some (hd fuel (by omega)) fun n g o h => (hs n g o h).1)
    (delivers_some (hd' fuel' (by omega)) fun n g o h => (hs n g o h).2) hn
  refine ⟨viewDoc filtered builtin predefined fuel depth doc (.dict c catalog), viewDoc filtered builtin predefined fuel' depth doc' (.dict c catalog), ?_, ?_, fun cs => ?_⟩
  · unfold viewFile; rw [e]
  · unfold viewFile; rw [e']
  · exact open_same (docs_alike builtin predefined hl (.dict c catalog hc) hI hJ) cs
end

/-! ### Files which are written -/

section
variable {filtered : List (Bytes × Obj) → Bytes → Res Bytes}

/-- What a file with tables serves. -/
theorem written_serves (secure : Opened → Obj → Res Opened) (clamps : Bool) (older : List Draft) (last : Draft) (hok : ∀ d ∈ older ++ [last], d.Ok)
    (hsmall : (writeFile (older ++ [last])).length < 10 ^ 10) (hb : clamps = true ∨ 1024 ≤ (writeFile (older ++ [last])).length)
    (henc : NoEntry last.trailer b!"Encrypt") (a b : Nat) (catalog : List (Bytes × Obj)) (c : Option Bytes)
    (hroot : dictGet last.trailer b!"Root" = some (.ref a b)) (hcat : contentOf (older ++ [last]) a b = some (.dict catalog)) (hcls : DictKind catalog c) :
    ∃ dict, Serves filtered (fun _ => secure) clamps (writeFile (older ++ [last])) b!"1.7" dict c catalog (contentOf (older ++ [last])) := by
  have hne : older ++ [last] ≠ [] := by simp
  have hsec := sections_of _ hne hok hsmall (fun d raw data => filtered d raw = .ok data)
  have hc := holds_of (decoded := fun d raw data => filtered d raw = .ok data) _ hok
  obtain ⟨r, rs, e, prev, hdict⟩ := revs_cons older last fileHeader.length none
  rw [e] at hsec hc
  refine ⟨r.dict, openDocument_opens secure clamps _ _ 0 _ r rs _ (header_at _ hne) (starts_at _ hne) hb hsec hc ?_ a b catalog c ?_ hcat hcls⟩
  · unfold NoEntry
    rw [hdict, dict_other _ _ _ (by decide)]
    exact henc
  · rw [hdict, dict_other _ _ _ (by decide)]
    exact hroot

/-- What a file with an object stream and a cross-reference stream serves. -/
theorem compressed_serves (secure : Opened → Obj → Res Opened) (clamps : Bool) (c : Compressed) (hc : c.Ok) (hundo : Undoes filtered c.how c.encode)
    (hb : clamps = true ∨ 1024 ≤ c.write.length) (henc : b!"Encrypt" ∉ c.trailer.map (·.1)) (a b : Nat) (catalog : List (Bytes × Obj)) (k : Option Bytes)
    (hroot : dictGet c.trailer b!"Root" = some (.ref a b)) (hcat : c.content a b = some (.dict catalog)) (hcls : DictKind catalog k) :
    Serves filtered (fun _ => secure) clamps c.write b!"1.7" (revC c).dict k catalog c.content := by
  have hsec := sections_compressed (decoded := fun d raw data => filtered d raw = .ok data) hc hundo
  have hh := holds_compressed (decoded := fun d raw data => filtered d raw = .ok data) hc hundo (fun d raw a b h1 h2 => by rw [h1] at h2; cases h2; rfl)
  refine openDocument_opens secure clamps _ _ 0 _ (revC c) [] _ (header_compressed c) (starts_compressed c) hb hsec hh ?_ a b catalog k (xref_trailer hc hroot) hcat hcls
  left
  show dictGet c.xrefDict _ = none
  unfold Compressed.xrefDict
  rw [dictGet_append, dictGet_notKey _ _ (by simp), dictGet_append, how_other hc (by simp) (by simp)]
  exact dictGet_notKey _ _ henc

/-- C131, files written in two ways: as a history of revisions with tables, the last of which gives the current objects, and with the objects in
a compressed object stream and a cross-reference stream. Nobody who only uses the viewer can tell them apart. -/
theorem C131_written (builtin : Builtin) (predefined : Bytes → Option CMap) (secure secure' : Opened → Obj → Res Opened) (clamps : Bool) (older : List Draft) (last : Draft)
    (hok : ∀ d ∈ older ++ [last], d.Ok) (hsmall : (writeFile (older ++ [last])).length < 10 ^ 10) (hb : clamps = true ∨ 1024 ≤ (writeFile (older ++ [last])).length)
    (henc : NoEntry last.trailer b!"Encrypt") (x : Compressed) (hx : x.Ok) (hundo : Undoes filtered x.how x.encode) (hb' : clamps = true ∨ 1024 ≤ x.write.length)
    (henc' : b!"Encrypt" ∉ x.trailer.map (·.1)) (a b : Nat) (catalog : List (Bytes × Obj)) (c : Option Bytes) (hroot : dictGet last.trailer b!"Root" = some (.ref a b))
    (hroot' : dictGet x.trailer b!"Root" = some (.ref a b)) (hcat : contentOf (older ++ [last]) a b = some (.dict catalog)) (hcls : DictKind catalog c)
    (hsame : ∀ n g o, contentOf (older ++ [last]) n g = some o → x.content n g = some o) (hn : NoDangling (contentOf (older ++ [last]))) :
    ∃ F, ∀ fuel, F ≤ fuel → ∀ fuel', F ≤ fuel' → ∀ depth, ∃ doc doc', viewFile filtered builtin predefined secure clamps fuel depth (writeFile (older ++ [last])) = .ok doc ∧
      viewFile filtered builtin predefined secure' clamps fuel' depth x.write = .ok doc' ∧
      ∀ cs : List Call, ((openViewer doc).map fun v => observe doc v cs) = (openViewer doc').map fun v => observe doc' v cs := by
  obtain ⟨dict, h⟩ := written_serves (filtered := filtered) secure clamps older last hok hsmall hb henc a b catalog c hroot hcat hcls
  exact C131_viewers builtin predefined h (compressed_serves secure' clamps x hx hundo hb' henc' a b catalog c hroot' (hsame a b _ hcat) hcls)
    (store := contentOf (older ++ [last])) (fun n g o e => ⟨e, hsame n g o e⟩) hn (refsIn_dict (hn a b _ hcat))
end

/-! ### An example -/

mutual
/-- A check of the references in an object. -/
def refsOk (p : Nat → Nat → Bool) : Obj → Bool
  | .ref n g => p n g
  | .arr xs => refsOks p xs
  | .dict es => refsOkEnts p es
  | .stream d _ => refsOkEnts p d
  | .null | .bool _ | .int _ | .real _ _ | .name _ | .str _ | .hex _ => true
  | .token _ | .image _ _ => false
/-- The elements. -/
def refsOks (p : Nat → Nat → Bool) : List Obj → Bool
  | [] => true
  | x :: xs => refsOk p x && refsOks p xs
/-- The entries. -/
def refsOkEnts (p : Nat → Nat → Bool) : List (Bytes × Obj) → Bool
  | [] => true
  | (_, x) :: xs => refsOk p x && refsOkEnts p xs
end

mutual
theorem refsOk_sound {p : Nat → Nat → Bool} {D : Nat → Nat → Prop} (hp : ∀ n g, p n g = true → D n g) : ∀ o : Obj, refsOk p o = true → RefsIn D o
  | .ref n g, h => .ref n g (hp n g h)
  | .arr xs, h => .arr xs (refsOks_sound hp xs h)
  | .dict es, h => .dict es (refsOkEnts_sound hp es h)
  | .stream d data, h => .stream d data (refsOkEnts_sound hp d h)
  | .null, _ => .atom _ trivial
  | .bool _, _ => .atom _ trivial
  | .int _, _ => .atom _ trivial
  | .real _ _, _ => .atom _ trivial
  | .name _, _ => .atom _ trivial
  | .str _, _ => .atom _ trivial
  | .hex _, _ => .atom _ trivial
  | .token _, h => by cases h
  | .image _ _, h => by cases h
theorem refsOks_sound {p : Nat → Nat → Bool} {D : Nat → Nat → Prop} (hp : ∀ n g, p n g = true → D n g) : ∀ xs : List Obj, refsOks p xs = true → ∀ x ∈ xs, RefsIn D x
  | [], _, x, hx => by cases hx
  | y :: xs, h, x, hx => by
    have h := (Bool.and_eq_true _ _).mp h
    rcases List.mem_cons.1 hx with e | hx
    · rw [e]
      exact refsOk_sound hp y h.1
    · exact refsOks_sound hp xs h.2 x hx
theorem refsOkEnts_sound {p : Nat → Nat → Bool} {D : Nat → Nat → Prop} (hp : ∀ n g, p n g = true → D n g) : ∀ es : List (Bytes × Obj), refsOkEnts p es = true →
    ∀ e ∈ es, RefsIn D e.2
  | [], _, x, hx => by cases hx
  | (k, y) :: xs, h, x, hx => by
    have h := (Bool.and_eq_true _ _).mp h
    rcases List.mem_cons.1 hx with e | hx
    · rw [e]
      exact refsOk_sound hp y h.1
    · exact refsOkEnts_sound hp xs h.2 x hx
end

theorem contentOf_mem {ds : List Draft} {n g : Nat} {o : Obj} (h : contentOf ds n g = some o) : ∃ d ∈ ds, ∃ i ∈ d.items, i.num = n ∧ i.gen = g ∧ i.val = o := by
  obtain ⟨d, hd, e⟩ := List.exists_of_findSome?_eq_some h
  obtain ⟨i, hi, e⟩ := Option.map_eq_some_iff.1 e
  have hp := List.find?_some hi
  simp at hp
  exact ⟨d, List.mem_reverse.1 hd, i, List.mem_of_find?_eq_some hi, hp.1, hp.2, e⟩

/-- A check of the references in revisions. -/
theorem noDangling_check {ds : List Draft} (h : (ds.all fun d => d.items.all fun i => refsOk (fun n g => (contentOf ds n g).isSome) i.val) = true) :
    NoDangling (contentOf ds) := by
  intro n g o ho
  obtain ⟨d, hd, i, hi, _, _, rfl⟩ := contentOf_mem ho
  refine refsOk_sound ?_ i.val (List.all_eq_true.1 (List.all_eq_true.1 h d hd) i hi)
  intro n g h e
  rw [e] at h
  cases h

/-- A document with other pages, replaced by the letter. -/
def oldLetter : List Draft := [firstDraft]

theorem letter_same : ∀ n g o, contentOf (oldLetter ++ [textDraft [] id letterPages]) n g = some o → (textPacked [] id letterPages).content n g = some o := by
  intro n g o ho
  obtain ⟨d, hd, i, hi, rfl, rfl, _⟩ := contentOf_mem ho
  rw [← ho]
  have h1 : firstDraft.items.map (fun i => (textPacked [] id letterPages).content i.num i.gen) =
      firstDraft.items.map fun i => contentOf (oldLetter ++ [textDraft [] id letterPages]) i.num i.gen := rfl
  have h2 : (textDraft [] id letterPages).items.map (fun i => (textPacked [] id letterPages).content i.num i.gen) =
      (textDraft [] id letterPages).items.map fun i => contentOf (oldLetter ++ [textDraft [] id letterPages]) i.num i.gen := rfl
  simp only [oldLetter, List.cons_append, List.nil_append, List.mem_cons, List.not_mem_nil, or_false] at hd
  rcases hd with rfl | rfl
  · exact List.map_inj_left.1 h1 i hi
  · exact List.map_inj_left.1 h2 i hi

theorem letter_closed : NoDangling (contentOf (oldLetter ++ [textDraft [] id letterPages])) := noDangling_check (by decide +kernel)

/-- The hypotheses of C131 are met: the letter, written over another document or into an object stream; for instance, both are opened, rendered,
moved to the second page, rendered, and moved to a page which does not exist. -/
example (x : Ext) (builtin : Builtin) (predefined : Bytes → Option CMap) (secure : Opened → Obj → Res Opened) :
    ∃ F, ∀ fuel, F ≤ fuel → ∀ fuel', F ≤ fuel' → ∀ depth, ∃ doc doc',
      viewFile (streamData x) builtin predefined secure true fuel depth (writeFile (oldLetter ++ [textDraft [] id letterPages])) = .ok doc ∧
      viewFile (streamData x) builtin predefined secure true fuel' depth (textPacked [] id letterPages).write = .ok doc' ∧
      ((openViewer doc).map fun v => observe doc v [.render, .next, .render, .next]) = (openViewer doc').map fun v => observe doc' v [.render, .next, .render, .next] := by
  obtain ⟨F, hF⟩ := C131_written (filtered := streamData x) builtin predefined secure secure true oldLetter (textDraft [] id letterPages) (by
      intro d hd
      simp only [oldLetter, List.cons_append, List.nil_append, List.mem_cons, List.not_mem_nil, or_false] at hd
      rcases hd with rfl | rfl
      · exact drafts_ok _ (by simp)
      · exact draft_ok how_plain _) (by decide +kernel) (Or.inl rfl) (Or.inl rfl)
    (textPacked [] id letterPages) (packed_text_ok how_plain _ (by decide +kernel) (by decide)) (undoes_plain x) (Or.inl rfl) (by decide) 1 0 _ _ rfl rfl rfl
    (.typed _ rfl (by decide)) letter_same letter_closed
  refine ⟨F, fun fuel hf fuel' hf' depth => ?_⟩
  obtain ⟨doc, doc', e, e', h⟩ := hF fuel hf fuel' hf' depth
  exact ⟨doc, doc', e, e', h _⟩

end PdfReader
