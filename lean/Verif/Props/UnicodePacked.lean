/-
  C140, for documents with object streams.
-/
import Verif.Spec.UnicodePacked
import Verif.Props.UnicodeFile

namespace PdfReader

open Spec

variable {filtered : List (Bytes × Obj) → Bytes → Res Bytes} {how : List (Bytes × Obj)} {encode : Bytes → Bytes} {table : List (Nat × Text)}

theorem coded_length (pages : List (List (List Nat))) : (codedLines pages).length = pages.length := List.length_map _

/-- The numbers of the objects are below the one of the CMap. -/
theorem glyph_below (pages : List (List Bytes)) : ∀ a ∈ (glyphObjects pages).map (·.1) ++ (contentItems how encode 4 pages).map (·.num), a < mapNumber pages := by
  intro a ha
  rw [glyph_numbers] at ha
  unfold mapNumber
  rcases List.mem_append.mp ha with ha | ha
  · unfold textObjects at ha
    rw [List.map_append, List.map_map] at ha
    rcases List.mem_append.mp ha with ha | ha
    · simp only [List.map_cons, List.map_nil, List.mem_cons, List.not_mem_nil, or_false] at ha
      omega
    · have e : (fun x : Nat × Obj => x.1) ∘ (fun k => (k, Obj.dict (pageEntries k))) = id := rfl
      rw [e, List.map_id] at ha
      obtain ⟨j, _, h'⟩ := numbers_form pages _ _ ha
      omega
  · rw [items_numbers] at ha
    obtain ⟨n, hn, rfl⟩ := List.mem_map.mp ha
    obtain ⟨j, _, h'⟩ := numbers_form pages _ _ hn
    omega

theorem nodup_three {L O : List Nat} {m : Nat} (h : (O ++ L).Nodup) (hs : ∀ a ∈ O ++ L, a < m) : ((L ++ [m]) ++ (O ++ [m + 1, m + 2])).Nodup := by
  obtain ⟨h1, h2, h3⟩ := List.nodup_append.mp h
  have hL : ∀ a ∈ L, a < m := fun a ha => hs a (List.mem_append_right _ ha)
  have hO : ∀ a ∈ O, a < m := fun a ha => hs a (List.mem_append_left _ ha)
  refine List.nodup_append.mpr ⟨List.nodup_append.mpr ⟨h2, by simp, ?_⟩, List.nodup_append.mpr ⟨h1, by simp, ?_⟩, ?_⟩
  · intro a ha b hb
    have := hL a ha
    rw [List.mem_singleton] at hb
    omega
  · intro a ha b hb
    have := hO a ha
    simp only [List.mem_cons, List.not_mem_nil, or_false] at hb
    omega
  · intro a ha b hb
    rcases List.mem_append.mp ha with ha | ha <;> rcases List.mem_append.mp hb with hb | hb
    · exact fun e => h3 b hb a ha e.symm
    · have := hL a ha
      simp only [List.mem_cons, List.not_mem_nil, or_false] at hb
      omega
    · have := hO b hb
      rw [List.mem_singleton] at ha
      omega
    · rw [List.mem_singleton] at ha
      simp only [List.mem_cons, List.not_mem_nil, or_false] at hb
      omega

theorem glyph_packed_nums (pages : List (List (List Nat))) :
    ((glyphPacked how encode table pages).items.map (·.num) ++ ((glyphPacked how encode table pages).members.map (·.1) ++
      [(glyphPacked how encode table pages).pack, (glyphPacked how encode table pages).xref])).Nodup := by
  have h := all_numbers_nodup (how := how) (encode := encode) (codedLines pages)
  rw [← glyph_numbers] at h
  have main := nodup_three h (glyph_below (how := how) (encode := encode) (codedLines pages))
  have e1 : mapNumber (codedLines pages) + 1 = 5 + 2 * pages.length := by unfold mapNumber; rw [coded_length]; omega
  have e2 : mapNumber (codedLines pages) + 2 = 6 + 2 * pages.length := by unfold mapNumber; rw [coded_length]; omega
  rw [e1, e2] at main
  show ((contentItems how encode 4 (codedLines pages) ++ [mapItem how encode table (codedLines pages)]).map (·.num) ++
    ((glyphObjects (codedLines pages)).map (·.1) ++ [5 + 2 * pages.length, 6 + 2 * pages.length])).Nodup
  rw [List.map_append]
  exact main

theorem glyph_items (hh : HowOk how) (pages : List (List (List Nat))) : ∀ i ∈ (glyphPacked how encode table pages).items,
    WritableValue i.val ∧ i.gen = 0 ∧ ∀ e data, i.val = .stream e data → ∀ v, (b!"Type", v) ∈ e → v ∉ [.name b!"ObjStm", .hex b!"ObjStm", .token b!"ObjStm"] := by
  intro i hi
  have hi' : i ∈ (glyphDraft how encode table pages).items := List.mem_append_right _ hi
  refine ⟨(glyph_ok hh pages).vals i hi', ?_, (glyph_ok hh pages).plain i hi'⟩
  rcases List.mem_append.mp hi with hi | hi
  · exact items_gen _ 4 i hi
  · rw [List.mem_singleton] at hi
    subst hi
    rfl

theorem glyph_packed_ok (hh : HowOk how) (pages : List (List (List Nat))) (hsmall : (glyphPacked how encode table pages).write.length < 256 ^ 4)
    (hcount : 2 * pages.length + 6 < 256 ^ 4) : (glyphPacked how encode table pages).Ok where
  vals := fun i hi => (glyph_items hh pages i hi).1
  plain := fun i hi => (glyph_items hh pages i hi).2.2
  mems := glyph_writable _
  nums := glyph_packed_nums pages
  gens := by
    intro i hi
    rw [(glyph_items hh pages i hi).2.1]
    decide
  count := by
    show (glyphObjects (codedLines pages)).length < _
    unfold glyphObjects
    rw [List.length_append, List.length_map, pageNumbers_length, coded_length]
    simp only [List.length_cons, List.length_nil]
    omega
  number := by
    show 5 + 2 * pages.length < _
    omega
  length := hsmall
  keys := (show [b!"Root"].Nodup by decide)
  ents := ⟨trivial, trivial⟩
  reserved := by
    show ∀ k ∈ _, k ∉ [b!"Root"]
    decide
  howKeys := hh.keys
  howOnly := hh.only
  howEnts := hh.ents

theorem packed_item {c : Compressed} (h : (c.items.map (·.num) ++ (c.members.map (·.1) ++ [c.pack, c.xref])).Nodup) {i : FileItem} (hi : i ∈ c.items) :
    c.content i.num i.gen = some i.val := by
  obtain ⟨h1, h2, h3⟩ := List.nodup_append.mp h
  obtain ⟨h4, h5, h6⟩ := List.nodup_append.mp h2
  have hall : ((c.body ++ [c.xrefItem]).map (·.num)).Nodup := by
    unfold Compressed.body
    rw [List.append_assoc, List.map_append]
    exact List.nodup_append.mpr ⟨h1, h5, fun a ha b hb => h3 a ha b (List.mem_append_right _ hb)⟩
  have hf := find_num hall (i := i) (by unfold Compressed.body; exact List.mem_append_left _ (List.mem_append_left _ hi))
  unfold Compressed.content
  rw [hf]

theorem packed_member {c : Compressed} (h : (c.items.map (·.num) ++ (c.members.map (·.1) ++ [c.pack, c.xref])).Nodup) {m : Nat × Obj} (hm : m ∈ c.members) :
    c.content m.1 0 = some m.2 := by
  obtain ⟨h1, h2, h3⟩ := List.nodup_append.mp h
  obtain ⟨h4, h5, h6⟩ := List.nodup_append.mp h2
  have hm' : m.1 ∈ c.members.map (·.1) := List.mem_map.mpr ⟨m, hm, rfl⟩
  unfold Compressed.content
  have : (c.body ++ [c.xrefItem]).find? (fun i => i.num == m.1 && i.gen == 0) = none := by
    refine List.find?_eq_none.mpr fun i hi e => ?_
    simp only [Bool.and_eq_true, beq_iff_eq] at e
    unfold Compressed.body at hi
    rw [List.append_assoc] at hi
    rcases List.mem_append.mp hi with hi | hi
    · exact h3 _ (List.mem_map.mpr ⟨i, hi, rfl⟩) _ (List.mem_append_left _ hm') e.1
    · refine h6 _ hm' i.num ?_ e.1.symm
      simp only [List.cons_append, List.nil_append, List.mem_cons, List.not_mem_nil, or_false] at hi ⊢
      rcases hi with rfl | rfl
      · exact Or.inl rfl
      · exact Or.inr rfl
  rw [this]
  have : ∀ (ms : List (Nat × Obj)), (ms.map (·.1)).Nodup → m ∈ ms → ms.find? (fun x => x.1 == m.1) = some m := by
    intro ms
    induction ms with
    | nil => intro _ h; cases h
    | cons x ms ih =>
      intro hnd hx
      rw [List.map_cons] at hnd
      obtain ⟨n1, n2⟩ := List.nodup_cons.mp hnd
      rcases List.mem_cons.mp hx with rfl | hx
      · rw [List.find?_cons_of_pos (by simp)]
      · rw [List.find?_cons_of_neg ?_]
        · exact ih n2 hx
        · intro e
          rw [beq_iff_eq] at e
          exact n1 (e ▸ List.mem_map.mpr ⟨m, hx, rfl⟩)
  have := this c.members h4 hm
  simp [this]

theorem glyph_packed_has (pages : List (List (List Nat))) : HasGlyphs (glyphPacked how encode table pages).content how encode table (codedLines pages) := by
  have hn := glyph_packed_nums (how := how) (encode := encode) (table := table) pages
  refine ⟨fun m hm => packed_member hn hm, fun i hi => ?_, ?_⟩
  · have := packed_item hn (i := i) (List.mem_append_left _ hi)
    rw [items_gen _ 4 i hi] at this
    exact this
  · exact packed_item hn (i := mapItem how encode table (codedLines pages)) (List.mem_append_right _ (List.mem_singleton.mpr rfl))

/-- C140, for the document with its dictionaries in an object stream, and a cross-reference stream: for all tables of codes of two bytes with their texts, of any characters of the Basic Multilingual Plane, all pages with lines of such codes, and any way of encoding
streams which the filters undo: when the document is written with a ToUnicode CMap for the table and opened in the viewer, iterating over the viewer gives for each page, in order,
the texts of its lines; and after any calls which returned, going to a page and rendering it gives the texts of this page. -/
theorem C140_compressed_codes (builtin : Builtin) (predefined : Bytes → Option CMap) (secure : Opened → Obj → Res Opened) (clamps : Bool)
    (hh : HowOk how) (hundo : Undoes filtered how encode) (table : List (Nat × Text)) (htab : TableOk table) (hnil : encode (mapText table) ≠ [])
    (pages : List (List (List Nat))) (hne : pages ≠ []) (hl : ∀ lines ∈ pages, ∀ l ∈ lines, ∀ k ∈ l, ∃ t, (k, t) ∈ table)
    (hsmall : (glyphPacked how encode table pages).write.length < 256 ^ 4) (hcount : 2 * pages.length + 6 < 256 ^ 4) (hb : clamps = true ∨ 1024 ≤ (glyphPacked how encode table pages).write.length) :
    ∃ F, ∀ fuel, F ≤ fuel → ∃ F', ∀ fuel', F' ≤ fuel' → ∃ doc w,
      viewFile filtered builtin predefined secure clamps fuel fuel' (glyphPacked how encode table pages).write = .ok doc ∧ openViewer doc = .ok w ∧
      (∃ is w', canvasAll doc (pages.length + 1) (false, w) = (is, none, w') ∧
        is.map (fun i => (w'.heap[i]?).map (·.strings)) = pages.map fun lines => some (lines.map fun l => l.flatMap (meaning table))) ∧
      ∀ w, Clean doc w → ∀ (n : Nat) lines, pages[n]? = some lines → ∃ w', Viewer.navigate doc (n + 1) w = (.ok (), w') ∧
        ∃ u, w'.render = (.ok (), u) ∧ u.current.strings = lines.map fun l => l.flatMap (meaning table) := by
  have has := glyph_packed_has (how := how) (encode := encode) (table := table) pages
  have hlen : ((pageNumbers 4 (codedLines pages)).map pageEntries).length = pages.length := by rw [List.length_map, pageNumbers_length]; exact List.length_map _
  have main := C95_compressed (filtered := filtered) builtin predefined secure clamps (glyphPacked how encode table pages) (glyph_packed_ok hh pages hsmall hcount) hundo hb
    (show b!"Encrypt" ∉ [b!"Root"] by decide) 1 0 catalogDict (some b!"Catalog") rfl
    (has.objects (1, .dict catalogDict) (by simp [glyphObjects])) (.typed _ rfl (by decide)) 2 0 (treeEntries (codedLines pages)) _ rfl
    (has.objects (2, .dict (treeEntries (codedLines pages))) (by simp [glyphObjects])) rfl (glyph_tree has) _
    (glyph_pages has hundo (hh.not (by decide)) hnil htab pages 4 hl has.contents)
    (by intro e; rw [e] at hlen; exact hne (List.length_eq_zero_iff.mp hlen.symm))
  rw [hlen] at main
  obtain ⟨F, hF⟩ := main
  refine ⟨F, fun fuel hf => ?_⟩
  obtain ⟨F', hF'⟩ := hF fuel hf
  refine ⟨F', fun fuel' hf' => ?_⟩
  obtain ⟨doc, w, h1, h2, ⟨is, w', h3, h4⟩, h5⟩ := hF' fuel' hf'
  refine ⟨doc, w, h1, h2, ⟨is, w', h3, by rw [h4, List.map_map]; rfl⟩, fun w hw n lines hn => h5 w hw n _ ?_⟩
  rw [List.getElem?_map, hn]
  rfl

/-- C140, for the document with an object stream: whatever the texts of the lines, of characters of the Basic Multilingual Plane, the document in which each is written with its number as code shows exactly them. -/
theorem C140_compressed_texts (builtin : Builtin) (predefined : Bytes → Option CMap) (secure : Opened → Obj → Res Opened) (clamps : Bool)
    (hh : HowOk how) (hundo : Undoes filtered how encode) (pages : List (List Text)) (hne : pages ≠ []) (hnil : encode (mapText (identityTable pages)) ≠ [])
    (hl : ∀ lines ∈ pages, ∀ l ∈ lines, ∀ c ∈ l, c < 65536)
    (hsmall : (glyphPacked how encode (identityTable pages) pages).write.length < 256 ^ 4) (hcount : 2 * pages.length + 6 < 256 ^ 4)
    (hb : clamps = true ∨ 1024 ≤ (glyphPacked how encode (identityTable pages) pages).write.length) :
    ∃ F, ∀ fuel, F ≤ fuel → ∃ F', ∀ fuel', F' ≤ fuel' → ∃ doc w,
      viewFile filtered builtin predefined secure clamps fuel fuel' (glyphPacked how encode (identityTable pages) pages).write = .ok doc ∧ openViewer doc = .ok w ∧
      (∃ is w', canvasAll doc (pages.length + 1) (false, w) = (is, none, w') ∧ is.map (fun i => (w'.heap[i]?).map (·.strings)) = pages.map some) ∧
      ∀ w, Clean doc w → ∀ (n : Nat) lines, pages[n]? = some lines → ∃ w', Viewer.navigate doc (n + 1) w = (.ok (), w') ∧
        ∃ u, w'.render = (.ok (), u) ∧ u.current.strings = lines := by
  have same : ∀ lines ∈ pages, (lines.map fun l => l.flatMap (meaning (identityTable pages))) = lines := by
    intro lines h
    refine (List.map_inj_left.mpr fun l hl' => ?_).trans (List.map_id lines)
    exact identity_line l fun k hk => identity_has h hl' hk
  obtain ⟨F, hF⟩ := C140_compressed_codes builtin predefined secure clamps hh hundo (identityTable pages) (by
      intro r hr
      obtain ⟨c, hc, rfl⟩ := List.mem_map.mp hr
      have : c < 65536 := by
        obtain ⟨l, h1, h2⟩ := List.mem_flatten.mp (List.mem_eraseDups.mp hc)
        obtain ⟨lines, h3, h4⟩ := List.mem_flatten.mp h1
        exact hl lines h3 l h4 c h2
      exact ⟨this, by simp, fun x hx => by rw [List.mem_singleton] at hx; rw [hx]; exact this⟩) hnil pages hne
    (fun lines h l h' k hk => ⟨[k], List.mem_map.mpr ⟨k, identity_has h h' hk, rfl⟩⟩) hsmall hcount hb
  refine ⟨F, fun fuel hf => ?_⟩
  obtain ⟨F', hF'⟩ := hF fuel hf
  refine ⟨F', fun fuel' hf' => ?_⟩
  obtain ⟨doc, w, h1, h2, ⟨is, w', h3, h4⟩, h5⟩ := hF' fuel' hf'
  refine ⟨doc, w, h1, h2, ⟨is, w', h3, h4.trans (List.map_inj_left.mpr fun lines h => by rw [same lines h])⟩, fun w hw n lines hn => ?_⟩
  obtain ⟨w', g1, u, g2, g3⟩ := h5 w hw n lines hn
  exact ⟨w', g1, u, g2, g3.trans (same lines (List.mem_of_getElem? hn))⟩

/-! ### Example -/

/-- The document in many scripts, its dictionaries in an object stream, all streams in hexadecimal. -/
example (x : Ext) (secure : Opened → Obj → Res Opened) :
    ∃ F, ∀ fuel, F ≤ fuel → ∃ F', ∀ fuel', F' ≤ fuel' → ∃ doc w,
      viewFile (streamData x) (fun _ => none) (fun _ => none) secure true fuel fuel' (glyphPacked [(b!"Filter", .name b!"ASCIIHexDecode")] toHex (identityTable manyScripts) manyScripts).write = .ok doc ∧ openViewer doc = .ok w ∧
      ∃ is w', canvasAll doc 3 (false, w) = (is, none, w') ∧ is.map (fun i => (w'.heap[i]?).map (·.strings)) = [some [[0x3B1, 0x3B2], [0x416]], some [[0x4E2D, 0x6587], [], [0x3B1, 0x3B2]]] := by
  obtain ⟨F, hF⟩ := C140_compressed_texts (fun _ => none) (fun _ => none) secure true how_hex (undoes_hex x) manyScripts (by decide) (by intro e; have := congrArg List.length e; revert this; decide +kernel)
    (by decide) (by decide +kernel) (by decide) (Or.inl rfl)
  refine ⟨F, fun fuel hf => ?_⟩
  obtain ⟨F', hF'⟩ := hF fuel hf
  refine ⟨F', fun fuel' hf' => ?_⟩
  obtain ⟨doc, w, h1, h2, ⟨is, w', h3, h4⟩, _⟩ := hF' fuel' hf'
  exact ⟨doc, w, h1, h2, is, w', h3, h4⟩

end PdfReader
