/-
  C140: texts in any script, by ToUnicode CMaps.
-/
import Verif.Lemmas.UnicodeFile
import Verif.Props.TextFile

namespace PdfReader

open Spec

variable {filtered : List (Bytes × Obj) → Bytes → Res Bytes} {how : List (Bytes × Obj)} {encode : Bytes → Bytes} {builtin : Builtin} {predefined : Bytes → Option CMap}

/-- A table which can be written: codes of two bytes, each with at least one character, of the Basic Multilingual Plane. -/
def TableOk (table : List (Nat × Text)) : Prop := ∀ r ∈ table, r.1 < 65536 ∧ r.2 ≠ [] ∧ ∀ c ∈ r.2, c < 65536

/-- The store has the objects of the document. -/
structure HasGlyphs (store : Store) (how : List (Bytes × Obj)) (encode : Bytes → Bytes) (table : List (Nat × Text)) (pages : List (List Bytes)) : Prop where
  objects : ∀ m ∈ glyphObjects pages, store m.1 0 = some m.2
  contents : ∀ i ∈ contentItems how encode 4 pages, store i.num 0 = some i.val
  map : store (mapNumber pages) 0 = some (mapItem how encode table pages).val

section
variable {store : Store} {table : List (Nat × Text)}

theorem glyph_tree {pages : List (List Bytes)} (h : HasGlyphs store how encode table pages) : PageTree store 2 0 ((pageNumbers 4 pages).map pageEntries) := by
  refine .node 2 0 (treeEntries pages) ((pageNumbers 4 pages).map fun n => (n, 0)) _ ?_ rfl (.direct _ _ ?_) ?_
  · exact h.objects (2, .dict (treeEntries pages)) (by simp [glyphObjects])
  · rw [List.map_map]
    rfl
  · refine tree_kids pages 4 fun n hn => h.objects (n, .dict (pageEntries n)) ?_
    unfold glyphObjects
    exact List.mem_append_right _ (List.mem_map.mpr ⟨n, hn, rfl⟩)

/-- The resources of every page. -/
def glyphChain (m : Nat) : List (List (Bytes × Category)) := [[], [(b!"Font", .named [(b!"F1", .dict (some b!"Font") (compositeEntries m))])]]

theorem glyph_ancestry {pages : List (List Bytes)} (h : HasGlyphs store how encode table pages) (k : Nat) : Ancestry store (pageEntries k) (glyphChain (mapNumber pages)) := by
  have h2 := h.objects (2, .dict (treeEntries pages)) (by simp [glyphObjects])
  have h3 := h.objects (3, .dict (compositeEntries (mapNumber pages))) (by simp [glyphObjects])
  refine .child _ [] (some b!"Pages") (treeEntries pages) _ (.absent (Or.inl rfl)) ⟨.ref 2 0, rfl, .ref 2 0 _ _ h2 (fun _ _ e => by cases e) (.dict _ _ (.typed _ rfl (by decide)))⟩
    (by simp [treeEntries]) ?_
  refine .top _ _ (.present none _ _ ⟨_, rfl, .dict _ _ (.untyped rfl)⟩ (.cons _ _ (.dict none [(b!"F1", .ref 3 0)]) _ _ _ (.dict _ _ (.untyped rfl)) (.named _ _ _ ?_ (by simp)) .nil) (by simp)) (Or.inl rfl)
  exact .cons _ _ _ _ _ (.ref 3 0 _ _ h3 (fun _ _ e => by cases e) (.dict _ _ (.typed _ rfl (by decide)))) .nil

/-- A decoder for the lines: those of the page. -/
def glyphDec (table : List (Nat × Text)) (lines : List (List Nat)) (f : Option Bytes) (o : Obj) : Option Text :=
  match f, o with
  | some n, .str s => if n = b!"F1" then (lines.find? fun l => l.flatMap twoBytes == s).map fun l => l.flatMap (meaning table) else none
  | _, _ => none

theorem twoBytes_inj {a b : Nat} (ha : a < 65536) (hb : b < 65536) (h : twoBytes a = twoBytes b) : a = b := by
  have e1 := congrArg UInt8.toNat (List.cons.inj h).1
  have e2 := congrArg UInt8.toNat (List.cons.inj (List.cons.inj h).2).1
  rw [ofNat_toNat (by omega), ofNat_toNat (by omega)] at e1 e2
  omega

theorem codes_inj : ∀ l l' : List Nat, (∀ k ∈ l, k < 65536) → (∀ k ∈ l', k < 65536) → l.flatMap twoBytes = l'.flatMap twoBytes → l = l'
  | [], [], _, _, _ => rfl
  | [], b :: l', _, _, h => by cases h
  | a :: l, [], _, _, h => by cases h
  | a :: l, b :: l', ha, hb, h => by
    rw [List.flatMap_cons, List.flatMap_cons] at h
    obtain ⟨h1, h2⟩ := List.append_inj h rfl
    rw [twoBytes_inj (ha a (by simp)) (hb b (by simp)) h1, codes_inj l l' (fun k hk => ha k (by simp [hk])) (fun k hk => hb k (by simp [hk])) h2]

theorem glyph_shows {doOk : Option Bytes → List Obj → Prop} {gsOk : List Obj → Prop} (htab : TableOk table) (all : List (List Nat)) (hl : ∀ l ∈ all, ∀ k ∈ l, ∃ t, (k, t) ∈ table) :
    ∀ lines : List (List Nat), (∀ l ∈ lines, l ∈ all) →
    Shows (glyphDec table all) doOk gsOk [none] (textOps (lines.map fun l => l.flatMap twoBytes)) [some b!"F1"] (lines.map fun l => l.flatMap (meaning table)) := by
  intro lines hsub
  refine .other _ _ _ _ _ _ (by decide) (by decide) (fun h => by revert h; decide) (fun o h => by cases h) ?_
  refine .font _ _ _ _ _ _ _ (.int 12) ?_
  induction lines with
  | nil => exact .other _ _ _ _ _ _ (by decide) (by decide) (fun h => by revert h; decide) (fun o h => by cases h) (.nil _)
  | cons l lines ih =>
    refine .one _ _ _ _ _ _ _ _ (Or.inl rfl) ?_ (ih fun l' h => hsub l' (List.mem_cons_of_mem _ h))
    unfold glyphDec
    show (if _ then _ else _) = _
    rw [if_pos rfl]
    have small : ∀ l ∈ all, ∀ k ∈ l, k < 65536 := fun l hl' k hk => by obtain ⟨t, ht⟩ := hl l hl' k hk; exact (htab _ ht).1
    cases hf : all.find? (fun l' => l'.flatMap twoBytes == l.flatMap twoBytes) with
    | none =>
      have := List.find?_eq_none.mp hf l (hsub l (by simp))
      simp at this
    | some l' =>
      have h1 := List.find?_some hf
      rw [beq_iff_eq] at h1
      have h2 := List.mem_of_find?_eq_some hf
      rw [codes_inj l' l (small l' h2) (small l (hsub l (by simp))) h1]
      rfl

theorem glyphDec_is {pages : List (List Bytes)} (h : HasGlyphs store how encode table pages) (hundo : Undoes filtered how encode) (hfree : b!"Type" ∉ how.map (·.1))
    (hnil : encode (mapText table) ≠ []) (htab : TableOk table) (lines : List (List Nat)) (hl : ∀ l ∈ lines, ∀ k ∈ l, ∃ t, (k, t) ∈ table)
    (f : Option Bytes) (o : Obj) (t : Text) (hd : glyphDec table lines f o = some t) : StringIs store filtered builtin predefined (glyphChain (mapNumber pages)) f o t := by
  unfold glyphDec at hd
  split at hd
  · rename_i n s
    split at hd
    · rename_i hc
      subst hc
      cases hf : lines.find? (fun l => l.flatMap twoBytes == s) with
      | none => rw [hf] at hd; cases hd
      | some l =>
        rw [hf] at hd
        cases hd
        have h1 := List.find?_some hf
        rw [beq_iff_eq] at h1
        subst h1
        refine .font _ (.dict (some b!"Font") (compositeEntries (mapNumber pages))) ⟨some (mapText table), some (.name b!"Identity-H"), some b!"Any"⟩ _ _ rfl
          (.mk _ _ _ (.stream b!"StreamBasedObject" _ _ _ ⟨_, rfl, .ref _ 0 _ _ h.map (fun _ _ e => by cases e) (.stream _ _ _ (.plain ?_))⟩ hnil (hundo _ _ rfl rfl))
            (.name _ ⟨_, rfl, .atom _ trivial⟩) (.name _ ⟨_, rfl, .atom _ trivial⟩)) ?_
        · show dictGet (_ :: how) _ = none
          exact dictGet_notKey _ _ (by rw [List.map_cons, List.mem_cons]; rintro (h | h); · cases h
                                       · exact hfree h)
        · exact line_means rfl htab l (hl l (List.mem_of_find?_eq_some hf))
    · cases hd
  · cases hd

theorem glyph_page {pages : List (List Bytes)} (h : HasGlyphs store how encode table pages) (hundo : Undoes filtered how encode)
    (hfree : b!"Type" ∉ how.map (·.1)) (hnil : encode (mapText table) ≠ []) (htab : TableOk table) (k : Nat) (lines : List (List Nat)) (hl : ∀ l ∈ lines, ∀ k ∈ l, ∃ t, (k, t) ∈ table)
    (hk : store (k + 1) 0 = some (.stream ((b!"Length", .int (encode (textContent (lines.map fun l => l.flatMap twoBytes))).length) :: how) (encode (textContent (lines.map fun l => l.flatMap twoBytes))))) :
    PageShows store filtered builtin predefined (pageEntries k) (lines.map fun l => l.flatMap (meaning table)) := by
  refine ⟨glyphChain (mapNumber pages), .stream b!"StreamBasedObject" _ _, textContent (lines.map fun l => l.flatMap twoBytes), textOps (lines.map fun l => l.flatMap twoBytes), _, glyphDec table lines,
    glyph_ancestry h k, ⟨fun _ => false, ?_⟩, ?_,
    ⟨_, rfl, .ref (k + 1) 0 _ _ hk (fun _ _ e => by cases e) (.stream _ _ _ (.plain ?_))⟩, .one _ _ _ _ (hundo _ _ rfl rfl), text_content _,
    glyphDec_is h hundo hfree hnil htab lines hl, glyph_shows htab lines hl lines fun _ h => h⟩
  · intro own ho e he
    simp only [glyphChain, List.mem_cons, List.not_mem_nil, or_false] at ho
    rcases ho with rfl | rfl
    · cases he
    · rw [List.mem_singleton] at he
      subst he
      rfl
  · intro own ho e he _ ns
    simp only [glyphChain, List.mem_cons, List.not_mem_nil, or_false] at ho
    rcases ho with rfl | rfl
    · cases he
    · rw [List.mem_singleton] at he
      subst he
      intro h
      cases h
  · show dictGet (_ :: how) _ = none
    exact dictGet_notKey _ _ (by rw [List.map_cons, List.mem_cons]; rintro (h | h); · cases h
                                 · exact hfree h)

theorem glyph_pages {all : List (List Bytes)} (h : HasGlyphs store how encode table all) (hundo : Undoes filtered how encode)
    (hfree : b!"Type" ∉ how.map (·.1)) (hnil : encode (mapText table) ≠ []) (htab : TableOk table) :
    ∀ (pages : List (List (List Nat))) (k : Nat), (∀ lines ∈ pages, ∀ l ∈ lines, ∀ k ∈ l, ∃ t, (k, t) ∈ table) → (∀ i ∈ contentItems how encode k (codedLines pages), store i.num 0 = some i.val) →
      PagesShow store filtered builtin predefined ((pageNumbers k (codedLines pages)).map pageEntries) (pages.map fun lines => lines.map fun l => l.flatMap (meaning table))
  | [], _, _, _ => .nil
  | lines :: pages, k, hl, hs => by
    unfold codedLines at hs ⊢
    rw [List.map_cons] at hs ⊢
    unfold contentItems at hs
    unfold pageNumbers
    exact .cons _ _ _ _ (glyph_page h hundo hfree hnil htab k lines (hl _ List.mem_cons_self) (hs _ List.mem_cons_self))
      (glyph_pages h hundo hfree hnil htab pages (k + 2) (fun l hm => hl l (List.mem_cons_of_mem _ hm)) fun i hi => hs i (List.mem_cons_of_mem _ hi))
end

/-! ### The file -/

theorem glyph_writable (pages : List (List Bytes)) : ∀ m ∈ glyphObjects pages, Writable m.2 ∧ ∀ n, m.2 ≠ .int n := by
  intro m hm
  unfold glyphObjects at hm
  rcases List.mem_append.mp hm with hm | hm
  · simp only [List.mem_cons, List.not_mem_nil, or_false] at hm
    rcases hm with rfl | rfl | rfl
    · exact ⟨⟨by decide, trivial, trivial, trivial⟩, fun n e => by cases e⟩
    · exact ⟨⟨(show [b!"Type", b!"Kids", b!"Count", b!"Resources"].Nodup by decide), trivial, refs_writable _, trivial, ⟨by decide, ⟨by decide, trivial, trivial⟩, trivial⟩, trivial⟩, fun n e => by cases e⟩
    · exact ⟨⟨(show [b!"Type", b!"Subtype", b!"BaseFont", b!"Encoding", b!"DescendantFonts", b!"ToUnicode"].Nodup by decide), trivial, trivial, trivial, trivial,
        ⟨⟨by decide, trivial, trivial, trivial, trivial⟩, trivial⟩, trivial, trivial⟩, fun n e => by cases e⟩
  · obtain ⟨k, _, rfl⟩ := List.mem_map.mp hm
    exact ⟨⟨by simp [pageEntries], trivial, trivial, trivial, trivial⟩, fun n e => by cases e⟩

theorem glyph_numbers (pages : List (List Bytes)) : (glyphObjects pages).map (·.1) = (textObjects pages).map (·.1) := by
  unfold glyphObjects textObjects
  rw [List.map_append, List.map_append]
  rfl

theorem glyph_nums {table : List (Nat × Text)} (pages : List (List (List Nat))) : ((glyphDraft how encode table pages).items.map (·.num)).Nodup := by
  show (((glyphObjects (codedLines pages)).map (fun m => (⟨m.1, 0, m.2⟩ : FileItem)) ++ (contentItems how encode 4 (codedLines pages) ++ [mapItem how encode table (codedLines pages)])).map (·.num)).Nodup
  rw [List.map_append, List.map_append, List.map_map, ← List.append_assoc]
  have h := all_numbers_nodup (how := how) (encode := encode) (codedLines pages)
  rw [← glyph_numbers] at h
  refine List.nodup_append.mpr ⟨h, by simp, ?_⟩
  intro a ha b hb
  have e : b = mapNumber (codedLines pages) := by simpa [mapItem] using hb
  have hp := packed_nums (how := how) (encode := encode) (codedLines pages)
  subst e
  rw [← List.append_assoc] at hp
  refine (List.nodup_append.mp hp).2.2 a ?_ _ (by simp [textPacked, mapNumber])
  have ha' : a ∈ (glyphObjects (codedLines pages)).map (·.1) ++ (contentItems how encode 4 (codedLines pages)).map (·.num) := ha
  rw [glyph_numbers] at ha'
  rcases List.mem_append.mp ha' with h | h
  · exact List.mem_append_right _ h
  · exact List.mem_append_left _ h

theorem glyph_ok {table : List (Nat × Text)} (hh : HowOk how) (pages : List (List (List Nat))) : (glyphDraft how encode table pages).Ok where
  nonempty := by simp [glyphDraft, glyphObjects]
  vals := by
    intro i hi
    rcases List.mem_append.mp hi with hi | hi
    · obtain ⟨m, hm, rfl⟩ := List.mem_map.mp hi
      exact writable_value (glyph_writable _ m hm).1
    · rcases List.mem_append.mp hi with hi | hi
      · exact content_writable hh _ 4 i hi
      · rw [List.mem_singleton] at hi
        subst hi
        exact ⟨List.nodup_cons.mpr ⟨hh.not (k := b!"Length") (by decide), hh.keys⟩, ⟨trivial, hh.ents⟩, List.mem_cons_self⟩
  plain := by
    intro i hi e data he
    rcases List.mem_append.mp hi with hi | hi
    · obtain ⟨m, hm, rfl⟩ := List.mem_map.mp hi
      have := (glyph_writable _ m hm).1
      rw [show m.2 = .stream e data from he] at this
      exact this.elim
    · rcases List.mem_append.mp hi with hi | hi
      · exact content_plain hh _ 4 i hi e data he
      · rw [List.mem_singleton] at hi
        subst hi
        intro v hv
        cases he
        rcases List.mem_cons.mp hv with h | h
        · cases h
        · exact absurd (List.mem_map.mpr ⟨_, h, rfl⟩) (hh.not (k := b!"Type") (by decide))
  nums := glyph_nums pages
  gens := by
    intro i hi
    have : i.gen = 0 := by
      rcases List.mem_append.mp hi with hi | hi
      · obtain ⟨m, hm, rfl⟩ := List.mem_map.mp hi
        rfl
      · rcases List.mem_append.mp hi with hi | hi
        · exact items_gen _ 4 i hi
        · rw [List.mem_singleton] at hi
          subst hi
          rfl
    rw [this]
    show 0 < 10 ^ 5
    decide
  keys := (show [b!"Size", b!"Root"].Nodup by decide)
  ents := ⟨trivial, trivial, trivial⟩
  noPrev := (show b!"Prev" ∉ [b!"Size", b!"Root"] by decide)

theorem glyph_has {table : List (Nat × Text)} (pages : List (List (List Nat))) :
    HasGlyphs (contentOf ([] ++ [glyphDraft how encode table pages])) how encode table (codedLines pages) := by
  have key : ∀ i ∈ (glyphDraft how encode table pages).items, contentOf ([] ++ [glyphDraft how encode table pages]) i.num i.gen = some i.val := by
    intro i hi
    unfold contentOf
    rw [List.nil_append, List.reverse_singleton, List.findSome?_cons, find_num (glyph_nums pages) hi]
    rfl
  refine ⟨fun m hm => key ⟨m.1, 0, m.2⟩ (List.mem_append_left _ (List.mem_map.mpr ⟨m, hm, rfl⟩)), fun i hi => ?_, ?_⟩
  · have := key i (List.mem_append_right _ (List.mem_append_left _ hi))
    rw [items_gen _ 4 i hi] at this
    exact this
  · exact key (mapItem how encode table (codedLines pages)) (List.mem_append_right _ (List.mem_append_right _ (List.mem_singleton.mpr rfl)))

/-- C140: for all tables of codes of two bytes with their texts, of any characters of the Basic Multilingual Plane, all pages with lines of such codes, and any way of encoding
streams which the filters undo: when the document is written with a ToUnicode CMap for the table and opened in the viewer, iterating over the viewer gives for each page, in order,
the texts of its lines; and after any calls which returned, going to a page and rendering it gives the texts of this page. -/
theorem C140_codes (builtin : Builtin) (predefined : Bytes → Option CMap) (secure : Opened → Obj → Res Opened) (clamps : Bool)
    (hh : HowOk how) (hundo : Undoes filtered how encode) (table : List (Nat × Text)) (htab : TableOk table) (hnil : encode (mapText table) ≠ [])
    (pages : List (List (List Nat))) (hne : pages ≠ []) (hl : ∀ lines ∈ pages, ∀ l ∈ lines, ∀ k ∈ l, ∃ t, (k, t) ∈ table)
    (hsmall : (writeFile [glyphDraft how encode table pages]).length < 10 ^ 10) (hb : clamps = true ∨ 1024 ≤ (writeFile [glyphDraft how encode table pages]).length) :
    ∃ F, ∀ fuel, F ≤ fuel → ∃ F', ∀ fuel', F' ≤ fuel' → ∃ doc w,
      viewFile filtered builtin predefined secure clamps fuel fuel' (writeFile [glyphDraft how encode table pages]) = .ok doc ∧ openViewer doc = .ok w ∧
      (∃ is w', canvasAll doc (pages.length + 1) (false, w) = (is, none, w') ∧
        is.map (fun i => (w'.heap[i]?).map (·.strings)) = pages.map fun lines => some (lines.map fun l => l.flatMap (meaning table))) ∧
      ∀ w, Clean doc w → ∀ (n : Nat) lines, pages[n]? = some lines → ∃ w', Viewer.navigate doc (n + 1) w = (.ok (), w') ∧
        ∃ u, w'.render = (.ok (), u) ∧ u.current.strings = lines.map fun l => l.flatMap (meaning table) := by
  have has := glyph_has (how := how) (encode := encode) (table := table) pages
  have hlen : ((pageNumbers 4 (codedLines pages)).map pageEntries).length = pages.length := by rw [List.length_map, pageNumbers_length]; exact List.length_map _
  have main := C95_written (filtered := filtered) builtin predefined secure clamps [] (glyphDraft how encode table pages)
    (by intro d hd; rw [List.nil_append, List.mem_singleton] at hd; subst hd; exact glyph_ok hh pages) hsmall hb (Or.inl rfl) 1 0 catalogDict (some b!"Catalog") rfl
    (has.objects (1, .dict catalogDict) (by simp [glyphObjects])) (.typed _ rfl (by decide)) 2 0 (treeEntries (codedLines pages)) _ rfl
    (has.objects (2, .dict (treeEntries (codedLines pages))) (by simp [glyphObjects])) rfl (glyph_tree has) _
    (glyph_pages has hundo (hh.not (by decide)) hnil htab pages 4 hl has.contents)
    (by intro e; rw [e] at hlen; exact hne (List.length_eq_zero_iff.mp hlen.symm))
  rw [hlen] at main
  obtain ⟨F, hF⟩ := main
  refine ⟨F, fun fuel hf => ?_⟩
  obtain ⟨F', hF'⟩ := hF fuel hf
  refine ⟨F', fun fuel' hf' => ?_⟩
  obtain ⟨doc, w, h1, h2, ⟨is, w', h3, h4⟩, h5⟩ := hF' fuel' hf'
  refine ⟨doc, w, h1, h2, ⟨is, w', h3, by rw [h4, List.map_map]; rfl⟩, fun w hw n lines hn => h5 w hw n _ ?_⟩
  rw [List.getElem?_map, hn]
  rfl

theorem identity_meaning {cs : List Nat} {k : Nat} (h : k ∈ cs) : meaning (cs.map fun c => (c, [c])) k = [k] := by
  unfold meaning
  induction cs with
  | nil => cases h
  | cons c cs ih =>
    rw [List.map_cons]
    by_cases e : c = k
    · rw [List.find?_cons_of_pos (by simpa using e), e]
      rfl
    · rw [List.find?_cons_of_neg (by simpa using e)]
      rcases List.mem_cons.mp h with h | h
      · exact absurd h.symm e
      · exact ih h

theorem identity_line {cs : List Nat} : ∀ l : List Nat, (∀ k ∈ l, k ∈ cs) → l.flatMap (meaning (cs.map fun c => (c, [c]))) = l
  | [], _ => rfl
  | k :: l, h => by rw [List.flatMap_cons, identity_meaning (h k (by simp)), identity_line l fun x hx => h x (by simp [hx])]; rfl

theorem identity_has {pages : List (List Text)} {lines : List Text} (hl : lines ∈ pages) {l : Text} (h : l ∈ lines) {k : Nat} (hk : k ∈ l) :
    k ∈ pages.flatten.flatten.eraseDups :=
  List.mem_eraseDups.mpr (List.mem_flatten.mpr ⟨l, List.mem_flatten.mpr ⟨lines, hl, h⟩, hk⟩)

/-- C140: whatever the texts of the lines, of characters of the Basic Multilingual Plane, the document in which each is written with its number as code shows exactly them. -/
theorem C140_texts (builtin : Builtin) (predefined : Bytes → Option CMap) (secure : Opened → Obj → Res Opened) (clamps : Bool)
    (hh : HowOk how) (hundo : Undoes filtered how encode) (pages : List (List Text)) (hne : pages ≠ []) (hnil : encode (mapText (identityTable pages)) ≠ [])
    (hl : ∀ lines ∈ pages, ∀ l ∈ lines, ∀ c ∈ l, c < 65536)
    (hsmall : (writeFile [glyphDraft how encode (identityTable pages) pages]).length < 10 ^ 10)
    (hb : clamps = true ∨ 1024 ≤ (writeFile [glyphDraft how encode (identityTable pages) pages]).length) :
    ∃ F, ∀ fuel, F ≤ fuel → ∃ F', ∀ fuel', F' ≤ fuel' → ∃ doc w,
      viewFile filtered builtin predefined secure clamps fuel fuel' (writeFile [glyphDraft how encode (identityTable pages) pages]) = .ok doc ∧ openViewer doc = .ok w ∧
      (∃ is w', canvasAll doc (pages.length + 1) (false, w) = (is, none, w') ∧ is.map (fun i => (w'.heap[i]?).map (·.strings)) = pages.map some) ∧
      ∀ w, Clean doc w → ∀ (n : Nat) lines, pages[n]? = some lines → ∃ w', Viewer.navigate doc (n + 1) w = (.ok (), w') ∧
        ∃ u, w'.render = (.ok (), u) ∧ u.current.strings = lines := by
  have same : ∀ lines ∈ pages, (lines.map fun l => l.flatMap (meaning (identityTable pages))) = lines := by
    intro lines h
    refine (List.map_inj_left.mpr fun l hl' => ?_).trans (List.map_id lines)
    exact identity_line l fun k hk => identity_has h hl' hk
  obtain ⟨F, hF⟩ := C140_codes builtin predefined secure clamps hh hundo (identityTable pages) (by
      intro r hr
      obtain ⟨c, hc, rfl⟩ := List.mem_map.mp hr
      have : c < 65536 := by
        obtain ⟨l, h1, h2⟩ := List.mem_flatten.mp (List.mem_eraseDups.mp hc)
        obtain ⟨lines, h3, h4⟩ := List.mem_flatten.mp h1
        exact hl lines h3 l h4 c h2
      exact ⟨this, by simp, fun x hx => by rw [List.mem_singleton] at hx; rw [hx]; exact this⟩) hnil pages hne
    (fun lines h l h' k hk => ⟨[k], List.mem_map.mpr ⟨k, identity_has h h' hk, rfl⟩⟩) hsmall hb
  refine ⟨F, fun fuel hf => ?_⟩
  obtain ⟨F', hF'⟩ := hF fuel hf
  refine ⟨F', fun fuel' hf' => ?_⟩
  obtain ⟨doc, w, h1, h2, ⟨is, w', h3, h4⟩, h5⟩ := hF' fuel' hf'
  refine ⟨doc, w, h1, h2, ⟨is, w', h3, h4.trans (List.map_inj_left.mpr fun lines h => by rw [same lines h])⟩, fun w hw n lines hn => ?_⟩
  obtain ⟨w', g1, u, g2, g3⟩ := h5 w hw n lines hn
  exact ⟨w', g1, u, g2, g3.trans (same lines (List.mem_of_getElem? hn))⟩

/-! ### Examples -/

/-- Greek, Cyrillic and Chinese, and the same line twice. -/
def manyScripts : List (List Text) := [[[0x3B1, 0x3B2], [0x416]], [[0x4E2D, 0x6587], [], [0x3B1, 0x3B2]]]

example (x : Ext) (secure : Opened → Obj → Res Opened) :
    ∃ F, ∀ fuel, F ≤ fuel → ∃ F', ∀ fuel', F' ≤ fuel' → ∃ doc w,
      viewFile (streamData x) (fun _ => none) (fun _ => none) secure true fuel fuel' (writeFile [glyphDraft [] id (identityTable manyScripts) manyScripts]) = .ok doc ∧ openViewer doc = .ok w ∧
      ∃ is w', canvasAll doc 3 (false, w) = (is, none, w') ∧ is.map (fun i => (w'.heap[i]?).map (·.strings)) = [some [[0x3B1, 0x3B2], [0x416]], some [[0x4E2D, 0x6587], [], [0x3B1, 0x3B2]]] := by
  obtain ⟨F, hF⟩ := C140_texts (fun _ => none) (fun _ => none) secure true how_plain (undoes_plain x) manyScripts (by decide) (by intro e; have := congrArg List.length e; revert this; decide +kernel)
    (by decide) (by decide +kernel) (Or.inl rfl)
  refine ⟨F, fun fuel hf => ?_⟩
  obtain ⟨F', hF'⟩ := hF fuel hf
  refine ⟨F', fun fuel' hf' => ?_⟩
  obtain ⟨doc, w, h1, h2, ⟨is, w', h3, h4⟩, _⟩ := hF' fuel' hf'
  exact ⟨doc, w, h1, h2, is, w', h3, h4⟩

/-- Codes may mean several characters: a ligature. -/
def ligatures : List (Nat × Text) := [(1, [0x66, 0x66, 0x69]), (2, [0x6F])]

example : TableOk ligatures := by unfold TableOk; decide

example (x : Ext) (secure : Opened → Obj → Res Opened) :
    ∃ F, ∀ fuel, F ≤ fuel → ∃ F', ∀ fuel', F' ≤ fuel' → ∃ doc w,
      viewFile (streamData x) (fun _ => none) (fun _ => none) secure true fuel fuel' (writeFile [glyphDraft [] id ligatures [[[2, 1]]]]) = .ok doc ∧ openViewer doc = .ok w ∧
      ∃ is w', canvasAll doc 2 (false, w) = (is, none, w') ∧ is.map (fun i => (w'.heap[i]?).map (·.strings)) = [some [(b!"offi").map (·.toNat)]] := by
  obtain ⟨F, hF⟩ := C140_codes (fun _ => none) (fun _ => none) secure true how_plain (undoes_plain x) ligatures (by unfold TableOk; decide) (by intro e; have := congrArg List.length e; revert this; decide +kernel)
    [[[2, 1]]] (by decide)
    (by intro lines h1 l h2 k h3; simp only [List.mem_singleton] at h1; subst h1; simp only [List.mem_singleton] at h2; subst h2
        simp only [List.mem_cons, List.not_mem_nil, or_false] at h3
        rcases h3 with rfl | rfl
        · exact ⟨_, List.mem_cons_of_mem _ List.mem_cons_self⟩
        · exact ⟨_, List.mem_cons_self⟩) (by decide +kernel) (Or.inl rfl)
  refine ⟨F, fun fuel hf => ?_⟩
  obtain ⟨F', hF'⟩ := hF fuel hf
  refine ⟨F', fun fuel' hf' => ?_⟩
  obtain ⟨doc, w, h1, h2, ⟨is, w', h3, h4⟩, _⟩ := hF' fuel' hf'
  exact ⟨doc, w, h1, h2, is, w', h3, h4.trans (by decide +kernel)⟩

end PdfReader
