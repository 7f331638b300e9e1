/-
  C148, for texts in any script.
-/
import Verif.Spec.UnicodeSealed
import Verif.Props.UnicodePacked
import Verif.Props.SealedStream

namespace PdfReader

open Spec

variable {filtered : List (Bytes × Obj) → Bytes → Res Bytes} {how : List (Bytes × Obj)} {encode : Bytes → Bytes} {table : List (Nat × Text)}

theorem secret_glyphs_nums (pages : List (List (List Nat))) (d : List (Bytes × Obj)) (id : Obj) :
    ((secretGlyphs how encode table pages d id).items.map (·.num) ++ ((secretGlyphs how encode table pages d id).members.map (·.1) ++
      [(secretGlyphs how encode table pages d id).pack, (secretGlyphs how encode table pages d id).xref])).Nodup := by
  show (((glyphPacked how encode table pages).items ++ [(⟨7 + 2 * pages.length, 0, .dict d⟩ : FileItem)]).map (·.num) ++
    ((glyphObjects (codedLines pages)).map (·.1) ++ [5 + 2 * pages.length, 6 + 2 * pages.length])).Nodup
  have h := glyph_packed_nums (how := how) (encode := encode) (table := table) pages
  rw [List.map_append, List.append_assoc]
  refine (List.perm_middle.nodup_iff).mpr (List.nodup_cons.mpr ⟨fun hmem => ?_, h⟩)
  have hb := glyph_below (how := how) (encode := encode) (codedLines pages)
  have hM : mapNumber (codedLines pages) = 4 + 2 * pages.length := by unfold mapNumber; rw [coded_length]
  rw [hM] at hb
  have hmem' : 7 + 2 * pages.length ∈ (glyphPacked how encode table pages).items.map (·.num) ++ ((glyphObjects (codedLines pages)).map (·.1) ++ [5 + 2 * pages.length, 6 + 2 * pages.length]) := hmem
  rcases List.mem_append.mp hmem' with h | h
  · rw [show (glyphPacked how encode table pages).items = contentItems how encode 4 (codedLines pages) ++ [mapItem how encode table (codedLines pages)] from rfl, List.map_append] at h
    rcases List.mem_append.mp h with h | h
    · have : 7 + 2 * pages.length < 4 + 2 * pages.length := hb _ (List.mem_append_right _ h)
      omega
    · have : 7 + 2 * pages.length = mapNumber (codedLines pages) := List.mem_singleton.mp h
      omega
  · rcases List.mem_append.mp h with h | h
    · have : 7 + 2 * pages.length < 4 + 2 * pages.length := hb _ (List.mem_append_left _ h)
      omega
    · simp only [List.mem_cons, List.not_mem_nil, or_false] at h
      omega

theorem secret_glyphs_ok (hh : HowOk how) (pages : List (List (List Nat))) {d : List (Bytes × Obj)} {id : Obj} (hs : SecretOk d id)
    (hsmall : (secretGlyphs how encode table pages d id).write.length < 256 ^ 4) (hcount : 2 * pages.length + 7 < 256 ^ 4) :
    (secretGlyphs how encode table pages d id).Ok where
  vals := by
    intro i hi
    rcases List.mem_append.mp hi with hi | hi
    · exact (glyph_items hh pages i hi).1
    · rw [List.mem_singleton] at hi
      subst hi
      exact writable_value ⟨hs.keys, hs.ents⟩
  plain := by
    intro i hi e data he
    rcases List.mem_append.mp hi with hi | hi
    · exact (glyph_items hh pages i hi).2.2 e data he
    · rw [List.mem_singleton] at hi
      subst hi
      cases he
  mems := glyph_writable _
  nums := secret_glyphs_nums pages d id
  gens := by
    intro i hi
    rcases List.mem_append.mp hi with hi | hi
    · rw [(glyph_items hh pages i hi).2.1]
      decide
    · rw [List.mem_singleton] at hi
      subst hi
      show 0 < _
      decide
  count := by
    show (glyphObjects (codedLines pages)).length < _
    unfold glyphObjects
    rw [List.length_append, List.length_map, pageNumbers_length, coded_length]
    simp only [List.length_cons, List.length_nil]
    omega
  number := by
    show 5 + 2 * pages.length < _
    omega
  length := hsmall
  keys := (show [b!"Root", b!"Encrypt", b!"ID"].Nodup by decide)
  ents := ⟨trivial, trivial, hs.ident, trivial⟩
  reserved := by
    show ∀ k ∈ _, k ∉ [b!"Root", b!"Encrypt", b!"ID"]
    decide
  howKeys := hh.keys
  howOnly := hh.only
  howEnts := hh.ents

/-- What is written by itself, besides the encryption dictionary: streams with their Length and the entries of the filters. -/
theorem glyph_streams (pages : List (List (List Nat))) : ∀ i ∈ (glyphPacked how encode table pages).items,
    ∃ data, i.val = .stream ((b!"Length", .int (data : Bytes).length) :: how) data := by
  intro i hi
  rcases List.mem_append.mp hi with hi | hi
  · exact items_val _ 4 i hi
  · rw [List.mem_singleton] at hi
    subst hi
    exact ⟨_, rfl⟩

theorem secret_glyphs_sealable (hh : HowOk how) (pages : List (List (List Nat))) {d : List (Bytes × Obj)} {id : Obj} (hcount : 2 * pages.length + 7 < 256 ^ 4) :
    (secretGlyphs how encode table pages d id).Sealable d where
  streams := by
    intro i hi es data e
    rcases List.mem_append.mp hi with hi | hi
    · obtain ⟨data', e'⟩ := glyph_streams pages i hi
      rw [e] at e'
      cases e'
      right; right; right; left
      intro hty
      have := mem_of_dictGet hty
      rcases List.mem_cons.mp this with h | h
      · cases h
      · exact hh.not (k := b!"Type") (by decide) (List.mem_map.mpr ⟨_, h, rfl⟩)
    · rw [List.mem_singleton] at hi
      subst hi
      cases e
  strings := by
    intro i hi
    rcases List.mem_append.mp hi with hi | hi
    · obtain ⟨data', e'⟩ := glyph_streams pages i hi
      rw [e']
      exact ⟨fun s e => (by cases e), fun s e => (by cases e)⟩
    · rw [List.mem_singleton] at hi
      subst hi
      exact ⟨fun s e => (by cases e), fun s e => (by cases e)⟩
  nums := by
    intro i hi
    rcases List.mem_append.mp hi with hi | hi
    · have hM : mapNumber (codedLines pages) = 4 + 2 * pages.length := by unfold mapNumber; rw [coded_length]
      rcases List.mem_append.mp hi with hi | hi
      · have := glyph_below (how := how) (encode := encode) (codedLines pages) i.num (List.mem_append_right _ (List.mem_map.mpr ⟨i, hi, rfl⟩))
        omega
      · rw [List.mem_singleton] at hi
        subst hi
        show mapNumber _ < _
        omega
    · rw [List.mem_singleton] at hi
      subst hi
      show 7 + 2 * pages.length < _
      omega

theorem secret_glyphs_has (m : Method) (pages : List (List (List Nat))) (d : List (Bytes × Obj)) (id : Obj) (hc : (secretGlyphs how encode table pages d id).Ok) :
    HasGlyphs ((secretGlyphs how encode table pages d id).openedContent m) how (fun x => opened m (encode x)) table (codedLines pages) := by
  refine ⟨fun x hx => opened_member hc hx, fun i hi => ?_, ?_⟩
  · obtain ⟨j, hj, e1, e2⟩ := items_opened m (codedLines pages) 4 i hi
    have := opened_item (m := m) hc (i := j) (List.mem_append_left _ (List.mem_append_left _ (List.mem_append_left _ hj)))
    rw [items_gen _ 4 j hj, e1] at this
    rw [this, e2]
  · exact opened_item (m := m) hc (i := mapItem how encode table (codedLines pages))
      (List.mem_append_left _ (List.mem_append_left _ (List.mem_append_right _ (List.mem_singleton.mpr rfl))))

/-- C148: texts in any script, written with a ToUnicode CMap into an encrypted document with an object stream, are shown to who has the password. For all tables of codes of
two bytes with their texts, all pages with lines of such codes, any way of encoding which the filters undo, also with the padding of AES behind, every method and every user or
owner password: the viewer gives for each page, in order, the texts of its lines. -/
theorem C148_codes (builtin : Builtin) (predefined : Bytes → Option CMap) (C : Crypto) (enc : Bytes → Bytes → Bytes) (hC : C.Good enc)
    (back : Env → Nat → Nat → M (Option Obj)) (clamps : Bool)
    (hh : HowOk how) (m : Method)
    (hundo : Undoes filtered how encode) (hundo' : Undoes filtered how (fun x => opened m (encode x)))
    (table : List (Nat × Text)) (htab : TableOk table) (hnil : opened m (encode (mapText table)) ≠ [])
    (pages : List (List (List Nat))) (hne : pages ≠ []) (hl : ∀ lines ∈ pages, ∀ l ∈ lines, ∀ k ∈ l, ∃ t, (k, t) ∈ table)
    (key : Bytes) (iv : Nat → Nat → Bytes) (hiv : ∀ n g, (iv n g).length = 16) (d : List (Bytes × Obj)) (id : Obj) (hs : SecretOk d id) (hm : MethodIs d m)
    (hcount : 2 * pages.length + 7 < 256 ^ 4) (hplain : (secretGlyphs how encode table pages d id).write.length < 256 ^ 4)
    (file : Bytes) (hfile : file = ((secretGlyphs how encode table pages d id).seal (ciphers C enc) key m iv).write)
    (hsmall : file.length < 256 ^ 4) (hb : clamps = true ∨ 1024 ≤ file.length)
    (hfil : dictGet d b!"Filter" = some (.name b!"Standard")) (password : Text) (pw : Bytes) (hp : utf8 password = .ok pw)
    (hun : Unlocks (ciphers C enc) (some id) d pw key) :
    ∃ F, ∀ fuel, F ≤ fuel → ∃ F', ∀ fuel', F' ≤ fuel' → ∃ doc w,
      viewFile filtered builtin predefined (secureWith C back fuel password) clamps fuel fuel' file = .ok doc ∧ openViewer doc = .ok w ∧
      (∃ is w', canvasAll doc (pages.length + 1) (false, w) = (is, none, w') ∧
        is.map (fun i => (w'.heap[i]?).map (·.strings)) = pages.map fun lines => some (lines.map fun l => l.flatMap (meaning table))) ∧
      ∀ w, Clean doc w → ∀ (n : Nat) lines, pages[n]? = some lines → ∃ w', Viewer.navigate doc (n + 1) w = (.ok (), w') ∧
        ∃ u, w'.render = (.ok (), u) ∧ u.current.strings = lines.map fun l => l.flatMap (meaning table) := by
  have hc := secret_glyphs_ok (encode := encode) hh pages hs hplain hcount
  have has := secret_glyphs_has (encode := encode) (table := table) m pages d id hc
  have hlen : ((pageNumbers 4 (codedLines pages)).map pageEntries).length = pages.length := by rw [List.length_map, pageNumbers_length, coded_length]
  have main := (C148_shows (filtered := filtered) builtin predefined C enc hC back clamps key m iv hiv (secretGlyphs how encode table pages d id) hc hundo hundo' d hm
    (secret_glyphs_sealable hh pages hcount) file hfile hsmall hb (7 + 2 * pages.length) 0 rfl (List.mem_append_right _ List.mem_cons_self) hfil password pw hp hun
    1 0 catalogDict (some b!"Catalog") rfl (has.objects (1, .dict catalogDict) (by simp [glyphObjects])) (.typed _ rfl (by decide)) 2 0 (treeEntries (codedLines pages)) _ rfl
    (has.objects (2, .dict (treeEntries (codedLines pages))) (by simp [glyphObjects])) rfl (glyph_tree has)).2 _
    (glyph_pages has hundo' (hh.not (by decide)) hnil htab pages 4 hl has.contents)
    (by intro e; rw [e] at hlen; exact hne (List.length_eq_zero_iff.mp hlen.symm))
  rw [hlen] at main
  obtain ⟨F, hF⟩ := main
  refine ⟨F, fun fuel hf => ?_⟩
  obtain ⟨F', hF'⟩ := hF fuel hf
  refine ⟨F', fun fuel' hf' => ?_⟩
  obtain ⟨doc, w, h1, h2, ⟨is, w', h3, h4⟩, h5⟩ := hF' fuel' hf'
  refine ⟨doc, w, h1, h2, ⟨is, w', h3, by rw [h4, List.map_map]; rfl⟩, fun w hw n lines hn => h5 w hw n _ ?_⟩
  rw [List.getElem?_map, hn]
  rfl

/-! ### Document -/

/-- A line with a ligature, encrypted with AES-256, opened with the owner password. -/
example (x : Ext) (back : Env → Nat → Nat → M (Option Obj)) :
    ∃ F, ∀ fuel, F ≤ fuel → ∃ F', ∀ fuel', F' ≤ fuel' → ∃ doc w,
      viewFile (streamData x) (fun _ => none) (fun _ => none) (secureWith toyCrypto back fuel [111, 119, 110, 101, 114]) true fuel fuel'
        ((secretGlyphs [(b!"Filter", .name b!"ASCIIHexDecode")] toHex ligatures [[[2, 1]]] secretDict5 toyIdent).seal (ciphers toyCrypto toyEnc)
          (List.replicate 16 5 ++ List.replicate 16 6) .aes256 toyIv).write = .ok doc ∧
      openViewer doc = .ok w ∧
      ∃ is w', canvasAll doc 2 (false, w) = (is, none, w') ∧ is.map (fun i => (w'.heap[i]?).map (·.strings)) =
        [some [(b!"offi").map (·.toNat)]] := by
  obtain ⟨F, hF⟩ := C148_codes (filtered := streamData x) (fun _ => none) (fun _ => none) toyCrypto toyEnc toy_good back true how_hex .aes256
    (undoes_hex x) (undoes_hex_padded x) ligatures (by unfold TableOk; decide)
    (by intro e; have := congrArg List.length e; revert this; decide +kernel) [[[2, 1]]] (by decide)
    (by intro lines h1 l h2 k h3; simp only [List.mem_singleton] at h1; subst h1; simp only [List.mem_singleton] at h2; subst h2
        simp only [List.mem_cons, List.not_mem_nil, or_false] at h3
        rcases h3 with rfl | rfl
        · exact ⟨_, List.mem_cons_of_mem _ List.mem_cons_self⟩
        · exact ⟨_, List.mem_cons_self⟩) _ toyIv (fun _ _ => List.length_replicate) secretDict5 toyIdent secret_dict5_ok
    secret_method5 (by decide) (by decide +kernel) _ rfl
    (by decide +kernel) (Or.inl rfl) rfl [111, 119, 110, 101, 114] b!"owner" rfl (.owner5 toyE5 (List.replicate 16 5) (List.replicate 16 6) secret_describes5 rfl rfl ⟨rfl, rfl⟩)
  refine ⟨F, fun fuel hf => ?_⟩
  obtain ⟨F', hF'⟩ := hF fuel hf
  refine ⟨F', fun fuel' hf' => ?_⟩
  obtain ⟨doc, w, h1, h2, ⟨is, w', h3, h4⟩, _⟩ := hF' fuel' hf'
  exact ⟨doc, w, h1, h2, is, w', h3, h4.trans (by decide +kernel)⟩

end PdfReader
