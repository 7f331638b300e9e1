/-
  C96: texts written into a file are the texts shown.
-/
import Verif.Lemmas.TextFile

namespace PdfReader

open Spec

variable {filtered : List (Bytes × Obj) → Bytes → Res Bytes} {how : List (Bytes × Obj)} {encode : Bytes → Bytes}

/-- Entries for streams: Filter and DecodeParms only, which can be written. -/
structure HowOk (how : List (Bytes × Obj)) : Prop where
  keys : (how.map (·.1)).Nodup
  only : ∀ k ∈ how.map (·.1), k ∈ [b!"Filter", b!"DecodeParms"]
  ents : WritableEnts how

theorem HowOk.not {how : List (Bytes × Obj)} (h : HowOk how) {k : Bytes} (hk : k ∉ [b!"Filter", b!"DecodeParms"]) : k ∉ how.map (·.1) :=
  fun hm => hk (h.only k hm)

theorem pageNumbers_length : ∀ (pages : List (List Bytes)) (k : Nat), (pageNumbers k pages).length = pages.length
  | [], _ => rfl
  | _ :: pages, k => by unfold pageNumbers; rw [List.length_cons, List.length_cons, pageNumbers_length pages]

theorem refs_writable : ∀ ns : List Nat, WritableItems (ns.map fun k => .ref k 0)
  | [] => trivial
  | n :: ns => ⟨trivial, refs_writable ns⟩

theorem objects_writable (pages : List (List Bytes)) : ∀ m ∈ textObjects pages, Writable m.2 ∧ ∀ n, m.2 ≠ .int n := by
  intro m hm
  unfold textObjects at hm
  rcases List.mem_append.mp hm with hm | hm
  · simp only [List.mem_cons, List.not_mem_nil, or_false] at hm
    rcases hm with rfl | rfl | rfl
    · exact ⟨⟨by decide, trivial, trivial, trivial⟩, fun n e => by cases e⟩
    · exact ⟨⟨(show [b!"Type", b!"Kids", b!"Count", b!"Resources"].Nodup by decide), trivial, refs_writable _, trivial, ⟨by decide, ⟨by decide, trivial, trivial⟩, trivial⟩, trivial⟩, fun n e => by cases e⟩
    · exact ⟨⟨by decide, trivial, trivial, trivial, trivial, trivial⟩, fun n e => by cases e⟩
  · obtain ⟨k, _, rfl⟩ := List.mem_map.mp hm
    exact ⟨⟨by simp [pageEntries], trivial, trivial, trivial, trivial⟩, fun n e => by cases e⟩

theorem writable_value {o : Obj} (h : Writable o) : WritableValue o := by
  cases o <;> first | exact h | (unfold Writable at h; exact h.elim)

theorem content_writable (hh : HowOk how) (pages : List (List Bytes)) (k : Nat) : ∀ i ∈ contentItems how encode k pages, WritableValue i.val := by
  intro i hi
  obtain ⟨data, e⟩ := items_val pages k i hi
  rw [e]
  exact ⟨List.nodup_cons.mpr ⟨hh.not (k := b!"Length") (by decide), hh.keys⟩, ⟨trivial, hh.ents⟩, List.mem_cons_self⟩

theorem content_plain (hh : HowOk how) (pages : List (List Bytes)) (k : Nat) : ∀ i ∈ contentItems how encode k pages, ∀ e data, i.val = .stream e data →
    ∀ v, (b!"Type", v) ∈ e → v ∉ [.name b!"ObjStm", .hex b!"ObjStm", .token b!"ObjStm"] := by
  intro i hi e data he v hv
  obtain ⟨data', e'⟩ := items_val pages k i hi
  rw [he] at e'
  cases e'
  rcases List.mem_cons.mp hv with h | h
  · cases h
  · exact absurd (List.mem_map.mpr ⟨_, h, rfl⟩) (hh.not (k := b!"Type") (by decide))

/-! ### With a cross-reference table -/

theorem draft_nums (pages : List (List Bytes)) : ((textDraft how encode pages).items.map (·.num)).Nodup := by
  unfold textDraft
  rw [List.map_append, List.map_map]
  exact all_numbers_nodup pages

theorem draft_ok (hh : HowOk how) (pages : List (List Bytes)) : (textDraft how encode pages).Ok where
  nonempty := by simp [textDraft, textObjects]
  vals := by
    intro i hi
    rcases List.mem_append.mp hi with hi | hi
    · obtain ⟨m, hm, rfl⟩ := List.mem_map.mp hi
      exact writable_value (objects_writable pages m hm).1
    · exact content_writable hh pages 4 i hi
  plain := by
    intro i hi e data he
    rcases List.mem_append.mp hi with hi | hi
    · obtain ⟨m, hm, rfl⟩ := List.mem_map.mp hi
      have := (objects_writable pages m hm).1
      rw [show m.2 = .stream e data from he] at this
      exact this.elim
    · exact content_plain hh pages 4 i hi e data he
  nums := draft_nums pages
  gens := by
    intro i hi
    rcases List.mem_append.mp hi with hi | hi
    · obtain ⟨m, hm, rfl⟩ := List.mem_map.mp hi
      show 0 < 10 ^ 5
      decide
    · rw [items_gen pages 4 i hi]
      show 0 < 10 ^ 5
      decide
  keys := (show [b!"Size", b!"Root"].Nodup by decide)
  ents := ⟨trivial, trivial, trivial⟩
  noPrev := (show b!"Prev" ∉ [b!"Size", b!"Root"] by decide)

theorem find_num {items : List FileItem} (h : (items.map (·.num)).Nodup) {i : FileItem} (hi : i ∈ items) :
    items.find? (fun j => j.num == i.num && j.gen == i.gen) = some i := by
  induction items with
  | nil => cases hi
  | cons j items ih =>
    rw [List.map_cons] at h
    obtain ⟨h1, h2⟩ := List.nodup_cons.mp h
    rcases List.mem_cons.mp hi with rfl | hi
    · rw [List.find?_cons_of_pos (by simp)]
    · rw [List.find?_cons_of_neg ?_]
      · exact ih h2 hi
      · intro e
        simp only [Bool.and_eq_true, beq_iff_eq] at e
        exact h1 (e.1 ▸ List.mem_map.mpr ⟨i, hi, rfl⟩)

theorem draft_has (pages : List (List Bytes)) : HasText (contentOf ([] ++ [textDraft how encode pages])) how encode pages := by
  have key : ∀ i ∈ (textDraft how encode pages).items, contentOf ([] ++ [textDraft how encode pages]) i.num i.gen = some i.val := by
    intro i hi
    unfold contentOf
    rw [List.nil_append, List.reverse_singleton, List.findSome?_cons, find_num (draft_nums pages) hi]
    rfl
  refine ⟨fun m hm => key ⟨m.1, 0, m.2⟩ (List.mem_append_left _ (List.mem_map.mpr ⟨m, hm, rfl⟩)), fun i hi => ?_⟩
  have := key i (List.mem_append_right _ hi)
  rw [items_gen pages 4 i hi] at this
  exact this

/-- C96: for all pages, each with any lines of text, and any way of encoding the contents which the filters undo: when the document is written
and opened in the viewer, iterating over the viewer gives for each page, in order, its lines as texts; and after any calls which returned, going
to a page and rendering it gives the lines of this page. The bytes of the lines mean characters by WinAnsiEncoding; the currency sign is left
out (C66). -/
theorem C96_texts (builtin : Builtin) (predefined : Bytes → Option CMap) (secure : Opened → Obj → Res Opened) (clamps : Bool)
    (hbu : builtin b!"WinAnsiEncoding" = none) (hpre : predefined b!"WinAnsiEncoding" = none) (hh : HowOk how) (hundo : Undoes filtered how encode)
    (pages : List (List Bytes)) (hne : pages ≠ []) (hl : ∀ lines ∈ pages, ∀ l ∈ lines, ∀ b ∈ l, b.toNat ≠ 0xA4)
    (hsmall : (writeFile [textDraft how encode pages]).length < 10 ^ 10) (hb : clamps = true ∨ 1024 ≤ (writeFile [textDraft how encode pages]).length) :
    ∃ F, ∀ fuel, F ≤ fuel → ∃ F', ∀ fuel', F' ≤ fuel' → ∃ doc w,
      viewFile filtered builtin predefined secure clamps fuel fuel' (writeFile [textDraft how encode pages]) = .ok doc ∧ openViewer doc = .ok w ∧
      (∃ is w', canvasAll doc (pages.length + 1) (false, w) = (is, none, w') ∧
        is.map (fun i => (w'.heap[i]?).map (·.strings)) = pages.map fun lines => some (lines.map (charsOf winAnsiChar))) ∧
      ∀ w, Clean doc w → ∀ (n : Nat) lines, pages[n]? = some lines → ∃ w', Viewer.navigate doc (n + 1) w = (.ok (), w') ∧
        ∃ u, w'.render = (.ok (), u) ∧ u.current.strings = lines.map (charsOf winAnsiChar) := by
  have has := draft_has (how := how) (encode := encode) pages
  have hlen : ((pageNumbers 4 pages).map pageEntries).length = pages.length := by rw [List.length_map, pageNumbers_length]
  have main := C95_written (filtered := filtered) builtin predefined secure clamps [] (textDraft how encode pages)
    (by intro d hd; rw [List.nil_append, List.mem_singleton] at hd; subst hd; exact draft_ok hh pages) hsmall hb (Or.inl rfl) 1 0 catalogDict (some b!"Catalog") rfl
    (has.objects (1, .dict catalogDict) (by simp [textObjects])) (.typed _ rfl (by decide)) 2 0 (treeEntries pages) _ rfl
    (has.objects (2, .dict (treeEntries pages)) (by simp [textObjects])) rfl (text_tree has) _
    (text_pages has hundo (hh.not (by decide)) hbu hpre pages 4 hl has.contents)
    (by intro e; rw [e] at hlen; exact hne (List.length_eq_zero_iff.mp hlen.symm))
  rw [hlen] at main
  obtain ⟨F, hF⟩ := main
  refine ⟨F, fun fuel hf => ?_⟩
  obtain ⟨F', hF'⟩ := hF fuel hf
  refine ⟨F', fun fuel' hf' => ?_⟩
  obtain ⟨doc, w, h1, h2, ⟨is, w', h3, h4⟩, h5⟩ := hF' fuel' hf'
  refine ⟨doc, w, h1, h2, ⟨is, w', h3, by rw [h4, List.map_map]; rfl⟩, fun w hw n lines hn => h5 w hw n _ ?_⟩
  rw [List.getElem?_map, hn]
  rfl

/-! ### With an object stream and a cross-reference stream -/

theorem packed_nums (pages : List (List Bytes)) :
    ((textPacked how encode pages).items.map (·.num) ++ ((textPacked how encode pages).members.map (·.1) ++ [(textPacked how encode pages).pack, (textPacked how encode pages).xref])).Nodup := by
  show ((contentItems how encode 4 pages).map (·.num) ++ ((textObjects pages).map (·.1) ++ [4 + 2 * pages.length, 5 + 2 * pages.length])).Nodup
  have h := all_numbers_nodup (how := how) (encode := encode) pages
  obtain ⟨h1, h2, h3⟩ := List.nodup_append.mp h
  have hm : ∀ a ∈ (textObjects pages).map (·.1), a < 4 + 2 * pages.length := by
    intro a ha
    unfold textObjects at ha
    rw [List.map_append, List.map_map] at ha
    rcases List.mem_append.mp ha with ha | ha
    · simp only [List.map_cons, List.map_nil, List.mem_cons, List.not_mem_nil, or_false] at ha
      omega
    · have e : (fun x : Nat × Obj => x.1) ∘ (fun k => (k, Obj.dict (pageEntries k))) = id := rfl
      rw [e, List.map_id] at ha
      obtain ⟨j, _, h'⟩ := numbers_form pages _ _ ha
      omega
  have hi : ∀ a ∈ (contentItems how encode 4 pages).map (·.num), a < 4 + 2 * pages.length := by
    intro a ha
    rw [items_numbers] at ha
    obtain ⟨n, hn, rfl⟩ := List.mem_map.mp ha
    obtain ⟨j, _, h'⟩ := numbers_form pages _ _ hn
    omega
  refine List.nodup_append.mpr ⟨h2, List.nodup_append.mpr ⟨h1, ?_, ?_⟩, ?_⟩
  · refine List.nodup_cons.mpr ⟨fun h => ?_, List.nodup_cons.mpr ⟨fun h => (by cases h), List.nodup_nil⟩⟩
    rw [List.mem_singleton] at h
    omega
  · intro a ha b hb
    have := hm a ha
    simp only [List.mem_cons, List.not_mem_nil, or_false] at hb
    omega
  · intro a ha b hb
    rcases List.mem_append.mp hb with hb | hb
    · exact fun e => h3 b hb a ha e.symm
    · have := hi a ha
      simp only [List.mem_cons, List.not_mem_nil, or_false] at hb
      omega

theorem packed_text_ok (hh : HowOk how) (pages : List (List Bytes)) (hsmall : (textPacked how encode pages).write.length < 256 ^ 4) (hcount : 2 * pages.length + 5 < 256 ^ 4) :
    (textPacked how encode pages).Ok where
  vals := content_writable hh pages 4
  plain := content_plain hh pages 4
  mems := objects_writable pages
  nums := packed_nums pages
  gens := by
    intro i hi
    rw [items_gen pages 4 i hi]
    decide
  count := by
    show (textObjects pages).length < _
    unfold textObjects
    rw [List.length_append, List.length_map, pageNumbers_length]
    simp only [List.length_cons, List.length_nil]
    omega
  number := by
    show 4 + 2 * pages.length < _
    omega
  length := hsmall
  keys := (show [b!"Root"].Nodup by decide)
  ents := ⟨trivial, trivial⟩
  reserved := by
    show ∀ k ∈ _, k ∉ [b!"Root"]
    decide
  howKeys := hh.keys
  howOnly := hh.only
  howEnts := hh.ents

theorem packed_has (pages : List (List Bytes)) : HasText (textPacked how encode pages).content how encode pages := by
  have hn := packed_nums (how := how) (encode := encode) pages
  obtain ⟨h1, h2, h3⟩ := List.nodup_append.mp hn
  obtain ⟨h4, h5, h6⟩ := List.nodup_append.mp h2
  have hall : (((textPacked how encode pages).body ++ [(textPacked how encode pages).xrefItem]).map (·.num)).Nodup := by
    unfold Compressed.body
    rw [List.append_assoc, List.map_append]
    refine List.nodup_append.mpr ⟨h1, h5, fun a ha b hb => h3 a ha b (List.mem_append_right _ hb)⟩
  constructor
  · intro m hm
    unfold Compressed.content
    have : ((textPacked how encode pages).body ++ [(textPacked how encode pages).xrefItem]).find? (fun i => i.num == m.1 && i.gen == 0) = none := by
      refine List.find?_eq_none.mpr fun i hi e => ?_
      simp only [Bool.and_eq_true, beq_iff_eq] at e
      have hm' : m.1 ∈ (textPacked how encode pages).members.map (·.1) := List.mem_map.mpr ⟨m, hm, rfl⟩
      unfold Compressed.body at hi
      rw [List.append_assoc] at hi
      rcases List.mem_append.mp hi with hi | hi
      · exact h3 _ (List.mem_map.mpr ⟨i, hi, rfl⟩) _ (List.mem_append_left _ hm') e.1
      · refine h6 _ hm' i.num ?_ e.1.symm
        simp only [List.cons_append, List.nil_append, List.mem_cons, List.not_mem_nil, or_false] at hi ⊢
        rcases hi with rfl | rfl
        · exact Or.inl rfl
        · exact Or.inr rfl
    rw [this]
    show ((textObjects pages).find? _).map _ = _
    have : ∀ (ms : List (Nat × Obj)), (ms.map (·.1)).Nodup → m ∈ ms → ms.find? (fun x => x.1 == m.1) = some m := by
      intro ms
      induction ms with
      | nil => intro _ h; cases h
      | cons x ms ih =>
        intro hnd hx
        rw [List.map_cons] at hnd
        obtain ⟨n1, n2⟩ := List.nodup_cons.mp hnd
        rcases List.mem_cons.mp hx with rfl | hx
        · rw [List.find?_cons_of_pos (by simp)]
        · rw [List.find?_cons_of_neg ?_]
          · exact ih n2 hx
          · intro e
            rw [beq_iff_eq] at e
            exact n1 (e ▸ List.mem_map.mpr ⟨m, hx, rfl⟩)
    rw [this (textObjects pages) h4 hm]
    rfl
  · intro i hi
    have hf := find_num hall (i := i) (by unfold Compressed.body; exact List.mem_append_left _ (List.mem_append_left _ hi))
    unfold Compressed.content
    rw [items_gen pages 4 i hi] at hf
    rw [hf]

/-- C96, for the document with its dictionaries in an object stream, and a cross-reference stream. -/
theorem C96_compressed_texts (builtin : Builtin) (predefined : Bytes → Option CMap) (secure : Opened → Obj → Res Opened) (clamps : Bool)
    (hbu : builtin b!"WinAnsiEncoding" = none) (hpre : predefined b!"WinAnsiEncoding" = none) (hh : HowOk how) (hundo : Undoes filtered how encode)
    (pages : List (List Bytes)) (hne : pages ≠ []) (hl : ∀ lines ∈ pages, ∀ l ∈ lines, ∀ b ∈ l, b.toNat ≠ 0xA4)
    (hsmall : (textPacked how encode pages).write.length < 256 ^ 4) (hcount : 2 * pages.length + 5 < 256 ^ 4)
    (hb : clamps = true ∨ 1024 ≤ (textPacked how encode pages).write.length) :
    ∃ F, ∀ fuel, F ≤ fuel → ∃ F', ∀ fuel', F' ≤ fuel' → ∃ doc w,
      viewFile filtered builtin predefined secure clamps fuel fuel' (textPacked how encode pages).write = .ok doc ∧ openViewer doc = .ok w ∧
      (∃ is w', canvasAll doc (pages.length + 1) (false, w) = (is, none, w') ∧
        is.map (fun i => (w'.heap[i]?).map (·.strings)) = pages.map fun lines => some (lines.map (charsOf winAnsiChar))) ∧
      ∀ w, Clean doc w → ∀ (n : Nat) lines, pages[n]? = some lines → ∃ w', Viewer.navigate doc (n + 1) w = (.ok (), w') ∧
        ∃ u, w'.render = (.ok (), u) ∧ u.current.strings = lines.map (charsOf winAnsiChar) := by
  have has := packed_has (how := how) (encode := encode) pages
  have hlen : ((pageNumbers 4 pages).map pageEntries).length = pages.length := by rw [List.length_map, pageNumbers_length]
  have main := C95_compressed (filtered := filtered) builtin predefined secure clamps (textPacked how encode pages) (packed_text_ok hh pages hsmall hcount) hundo hb
    (show b!"Encrypt" ∉ [b!"Root"] by decide) 1 0 catalogDict (some b!"Catalog") rfl
    (has.objects (1, .dict catalogDict) (by simp [textObjects])) (.typed _ rfl (by decide)) 2 0 (treeEntries pages) _ rfl
    (has.objects (2, .dict (treeEntries pages)) (by simp [textObjects])) rfl (text_tree has) _
    (text_pages has hundo (hh.not (by decide)) hbu hpre pages 4 hl has.contents)
    (by intro e; rw [e] at hlen; exact hne (List.length_eq_zero_iff.mp hlen.symm))
  rw [hlen] at main
  obtain ⟨F, hF⟩ := main
  refine ⟨F, fun fuel hf => ?_⟩
  obtain ⟨F', hF'⟩ := hF fuel hf
  refine ⟨F', fun fuel' hf' => ?_⟩
  obtain ⟨doc, w, h1, h2, ⟨is, w', h3, h4⟩, h5⟩ := hF' fuel' hf'
  refine ⟨doc, w, h1, h2, ⟨is, w', h3, by rw [h4, List.map_map]; rfl⟩, fun w hw n lines hn => h5 w hw n _ ?_⟩
  rw [List.getElem?_map, hn]
  rfl

/-! ### Documents -/

theorem how_plain : HowOk [] := ⟨by decide, by decide, trivial⟩
theorem how_hex : HowOk [(b!"Filter", .name b!"ASCIIHexDecode")] := ⟨by decide, by decide, ⟨trivial, trivial⟩⟩
theorem how_flate : HowOk [(b!"Filter", .name b!"FlateDecode")] := ⟨by decide, by decide, ⟨trivial, trivial⟩⟩

/-- Two pages. The first has a line with parentheses and a curly apostrophe. -/
def letterPages : List (List Bytes) := [[b!"Dear (all),", b!"it" ++ [0x92] ++ b!"s me"], [b!"Yours", b!""]]

theorem letter_chars : letterPages.map (fun lines => some (lines.map (charsOf winAnsiChar))) =
    [some [(b!"Dear (all),").map (·.toNat), [105, 116, 0x2019, 115, 32, 109, 101]], some [(b!"Yours").map (·.toNat), []]] := by decide +kernel

theorem letter_bytes : ∀ lines ∈ letterPages, ∀ l ∈ lines, ∀ b ∈ l, b.toNat ≠ 0xA4 := by decide +kernel

/-- What is written for the first page. -/
example : textContent [b!"Dear (all),", b!"it" ++ [0x92] ++ b!"s me"] = b!"BT /F1 12 Tf (Dear \\050all\\051\\054) Tj (it\\222s me) Tj ET" := by decide +kernel

/-- The hypotheses of C96 are met: without compression. -/
example (x : Ext) (secure : Opened → Obj → Res Opened) :
    ∃ F, ∀ fuel, F ≤ fuel → ∃ F', ∀ fuel', F' ≤ fuel' → ∃ doc w,
      viewFile (streamData x) (fun _ => none) (fun _ => none) secure true fuel fuel' (writeFile [textDraft [] id letterPages]) = .ok doc ∧ openViewer doc = .ok w ∧
      ∃ is w', canvasAll doc 3 (false, w) = (is, none, w') ∧ is.map (fun i => (w'.heap[i]?).map (·.strings)) =
        [some [(b!"Dear (all),").map (·.toNat), [105, 116, 0x2019, 115, 32, 109, 101]], some [(b!"Yours").map (·.toNat), []]] := by
  obtain ⟨F, hF⟩ := C96_texts (fun _ => none) (fun _ => none) secure true rfl rfl how_plain (undoes_plain x) letterPages (by decide) letter_bytes
    (by decide +kernel) (Or.inl rfl)
  refine ⟨F, fun fuel hf => ?_⟩
  obtain ⟨F', hF'⟩ := hF fuel hf
  refine ⟨F', fun fuel' hf' => ?_⟩
  obtain ⟨doc, w, h1, h2, ⟨is, w', h3, h4⟩, _⟩ := hF' fuel' hf'
  exact ⟨doc, w, h1, h2, is, w', h3, h4.trans letter_chars⟩

/-- In an object stream, everything in hexadecimal. -/
example (x : Ext) (secure : Opened → Obj → Res Opened) :
    ∃ F, ∀ fuel, F ≤ fuel → ∃ F', ∀ fuel', F' ≤ fuel' → ∃ doc w,
      viewFile (streamData x) (fun _ => none) (fun _ => none) secure true fuel fuel' (textPacked [(b!"Filter", .name b!"ASCIIHexDecode")] toHex letterPages).write = .ok doc ∧
      openViewer doc = .ok w ∧
      ∃ is w', canvasAll doc 3 (false, w) = (is, none, w') ∧ is.map (fun i => (w'.heap[i]?).map (·.strings)) =
        [some [(b!"Dear (all),").map (·.toNat), [105, 116, 0x2019, 115, 32, 109, 101]], some [(b!"Yours").map (·.toNat), []]] := by
  obtain ⟨F, hF⟩ := C96_compressed_texts (fun _ => none) (fun _ => none) secure true rfl rfl how_hex (undoes_hex x) letterPages (by decide) letter_bytes
    (by decide +kernel) (by decide) (Or.inl rfl)
  refine ⟨F, fun fuel hf => ?_⟩
  obtain ⟨F', hF'⟩ := hF fuel hf
  refine ⟨F', fun fuel' hf' => ?_⟩
  obtain ⟨doc, w, h1, h2, ⟨is, w', h3, h4⟩, _⟩ := hF' fuel' hf'
  exact ⟨doc, w, h1, h2, is, w', h3, h4.trans letter_chars⟩

end PdfReader
