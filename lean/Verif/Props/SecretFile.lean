/-
  C98: what was written encrypted is read back with the password.
-/
import Verif.Props.Sealed
import Verif.Lemmas.WriteSealed
import Verif.Props.TextFile

namespace PdfReader

open Spec

variable {filtered : List (Bytes × Obj) → Bytes → Res Bytes} {how : List (Bytes × Obj)} {encode : Bytes → Bytes}

/-- A document written encrypted opens with its password, and holds what was written. -/
theorem secret_serves (C : Crypto) (enc : Bytes → Bytes → Bytes) (hC : C.Good enc) (back : Env → Nat → Nat → M (Option Obj)) (clamps : Bool)
    (key : Bytes) (m : Method) (iv : Nat → Nat → Bytes) (hiv : ∀ n g, (iv n g).length = 16) (older : List Draft) (last : Draft)
    (hok : ∀ dr ∈ older ++ [last], dr.Ok) (d : List (Bytes × Obj)) (hm : MethodIs d m) (hse : ∀ dr ∈ older ++ [last], dr.Sealable d)
    (hsmall : (writeFile ((older ++ [last]).map (Draft.seal (ciphers C enc) key m iv))).length < 10 ^ 10)
    (hb : clamps = true ∨ 1024 ≤ (writeFile ((older ++ [last]).map (Draft.seal (ciphers C enc) key m iv))).length)
    (en eg : Nat) (henc : dictGet last.trailer b!"Encrypt" = some (.ref en eg)) (hd : contentOf (older ++ [last]) en eg = some (.dict d))
    (hfil : dictGet d b!"Filter" = some (.name b!"Standard")) (password : Text) (pw : Bytes) (hp : utf8 password = .ok pw)
    (hun : Unlocks (ciphers C enc) (dictGet last.trailer b!"ID") d pw key)
    (a b : Nat) (catalog : List (Bytes × Obj)) (c : Option Bytes) (hroot : dictGet last.trailer b!"Root" = some (.ref a b))
    (hcat : contentOf (older ++ [last]) a b = some (.dict catalog)) (hcls : DictKind catalog c) :
    ∃ dict, (∀ k, k ≠ b!"Prev" → dictGet dict k = dictGet last.trailer k) ∧
      Serves filtered (fun fuel => secureWith C back fuel password) clamps (writeFile ((older ++ [last]).map (Draft.seal (ciphers C enc) key m iv))) b!"1.7" dict
        c catalog (fun n g => (contentOf (older ++ [last]) n g).map (openedObj m)) := by
  have hne : (older ++ [last]).map (Draft.seal (ciphers C enc) key m iv) ≠ [] := by simp
  have hok' : ∀ d ∈ (older ++ [last]).map (Draft.seal (ciphers C enc) key m iv), d.Ok := by
    intro d hd
    obtain ⟨d', hd', rfl⟩ := List.mem_map.mp hd
    exact seal_ok (hok d' hd')
  have hsec := sections_of _ hne hok' hsmall (fun d raw data => filtered d raw = .ok data)
  have hc := holds_sealed (X := ciphers C enc) (key := key) (iv := iv) (decoded := fun d raw data => filtered d raw = .ok data) _ hok hm hse hiv
  have hcur := content_current _ hok' (n := en) (g := eg) (o := .dict d) (by rw [content_seal, hd]; rfl)
  have hh := header_at _ hne
  have hs := starts_at _ hne
  generalize hF : writeFile ((older ++ [last]).map (Draft.seal (ciphers C enc) key m iv)) = file at *
  rw [List.map_append, List.map_singleton] at hsec hc hcur hs
  obtain ⟨r, rs, e, prev, hdict⟩ := revs_cons (older.map (Draft.seal (ciphers C enc) key m iv)) (last.seal (ciphers C enc) key m iv) fileHeader.length none
  rw [e] at hsec hc hcur
  have hdict' : ∀ k, k ≠ b!"Prev" → dictGet r.dict k = dictGet last.trailer k := fun k hk => by rw [hdict, dict_other _ _ _ hk]; rfl
  refine ⟨r.dict, hdict', sealed_serves C enc hC (fun _ => back) clamps file _ 0 _ r rs _ hh hs hb hsec en eg d ?_ ?_ _ (listed_found back hc (by rw [hd]; rfl) hcur hfil) hfil password pw key hp ?_ hc a b catalog c ?_ ?_ hcls⟩
  · rw [hdict' _ (by decide)]; exact henc
  · rw [hd]; rfl
  · rw [hdict' _ (by decide)]; exact hun
  · rw [hdict' _ (by decide)]; exact hroot
  · rw [hcat]; rfl

/-- C98: any revisions, written one after the other with every stream encrypted, open with the user or the owner password; the user sees the
newest entries of the trailer, and every object asked for is the newest one written, whatever was asked for before. For RC4 and Identity it is
exactly the object (C98_exact); with AES the data keep their padding (C71). -/
theorem C98_read_back (C : Crypto) (enc : Bytes → Bytes → Bytes) (hC : C.Good enc) (back : Env → Nat → Nat → M (Option Obj)) (clamps : Bool)
    (key : Bytes) (m : Method) (iv : Nat → Nat → Bytes) (hiv : ∀ n g, (iv n g).length = 16) (older : List Draft) (last : Draft)
    (hok : ∀ dr ∈ older ++ [last], dr.Ok) (d : List (Bytes × Obj)) (hm : MethodIs d m) (hse : ∀ dr ∈ older ++ [last], dr.Sealable d)
    (hsmall : (writeFile ((older ++ [last]).map (Draft.seal (ciphers C enc) key m iv))).length < 10 ^ 10)
    (hb : clamps = true ∨ 1024 ≤ (writeFile ((older ++ [last]).map (Draft.seal (ciphers C enc) key m iv))).length)
    (en eg : Nat) (henc : dictGet last.trailer b!"Encrypt" = some (.ref en eg)) (hd : contentOf (older ++ [last]) en eg = some (.dict d))
    (hfil : dictGet d b!"Filter" = some (.name b!"Standard")) (password : Text) (pw : Bytes) (hp : utf8 password = .ok pw)
    (hun : Unlocks (ciphers C enc) (dictGet last.trailer b!"ID") d pw key)
    (a b : Nat) (catalog : List (Bytes × Obj)) (c : Option Bytes) (hroot : dictGet last.trailer b!"Root" = some (.ref a b))
    (hcat : contentOf (older ++ [last]) a b = some (.dict catalog)) (hcls : DictKind catalog c) :
    ∃ F, ∀ fuel, F ≤ fuel → ∃ doc,
      openWith C back filtered clamps fuel password (writeFile ((older ++ [last]).map (Draft.seal (ciphers C enc) key m iv))) = .ok (doc, .dict c catalog) ∧
      doc.version = b!"1.7" ∧
      (∀ key ∈ [b!"Size", b!"Root", b!"Encrypt", b!"Info", b!"ID"], ∀ v, dictGet last.trailer key = some v → dictGet doc.trailer key = some v) ∧
      ∀ history : List (Nat × Nat), (∀ k ∈ history, contentOf (older ++ [last]) k.1 k.2 ≠ none) → ∀ n g x, contentOf (older ++ [last]) n g = some x →
        (locate doc.env fuel n g (asked doc.env fuel history doc.st)).1 = .ok (openedObj m x) := by
  obtain ⟨dict, hdict, F, hF⟩ := secret_serves (filtered := filtered) C enc hC back clamps key m iv hiv older last hok d hm hse hsmall hb en eg henc hd hfil password pw hp
    hun a b catalog c hroot hcat hcls
  refine ⟨F, fun fuel hf => ?_⟩
  obtain ⟨doc, e, hv, ht, I, hI, hdel⟩ := hF fuel hf
  refine ⟨doc, e, hv, fun key hkey v hv => ?_, fun history hh n g x hx => ?_⟩
  · refine (ht key ?_).1 v ?_
    · simp only [List.mem_cons, List.not_mem_nil, or_false] at hkey ⊢
      rcases hkey with h | h | h | h | h <;> simp [h]
    · rw [hdict, hv]
      simp only [List.mem_cons, List.not_mem_nil, or_false] at hkey
      rcases hkey with rfl | rfl | rfl | rfl | rfl <;> decide
  · have hasked := asked_keeps (hdel fuel hf) history doc.st hI fun k hk => by
      have := hh k hk
      cases hc : contentOf (older ++ [last]) k.1 k.2 with
      | none => exact absurd hc this
      | some x => simp
    exact (hdel fuel hf n g (openedObj m x) _ hasked (by show Option.map _ _ = _; rw [hx]; rfl)).1

theorem dictSet_same {k : Bytes} {v : Obj} : ∀ {es : List (Bytes × Obj)}, (es.map (·.1)).Nodup → (k, v) ∈ es → dictSet es k v = es
  | [], _, h => by cases h
  | (k', v') :: es, hn, h => by
    rw [List.map_cons] at hn
    obtain ⟨h1, h2⟩ := List.nodup_cons.mp hn
    unfold dictSet
    rcases List.mem_cons.mp h with e | h
    · cases e
      rw [if_pos rfl]
    · rw [if_neg ?_, dictSet_same h2 h]
      rintro rfl
      exact h1 (List.mem_map.mpr ⟨_, h, rfl⟩)

/-- C98: without padding, what is read is what was written. -/
theorem C98_exact (m : Method) (hm : m = .rc4 ∨ m = .identity) (ds : List Draft) (hok : ∀ dr ∈ ds, dr.Ok) (n g : Nat) (x : Obj) (h : contentOf ds n g = some x) :
    openedObj m x = x := by
  obtain ⟨d, hd, i, hi, _, _, rfl⟩ := content_mem h
  have hw := (hok d hd).vals i hi
  have ho : ∀ data, opened m data = data := by
    intro data
    rcases hm with rfl | rfl <;> rfl
  cases hv : i.val with
  | stream es data =>
    rw [hv] at hw
    obtain ⟨h1, _, h3⟩ := hw
    show Obj.stream (dictSet es _ _) _ = _
    rw [ho, dictSet_same h1 h3]
  | _ => rfl

/-! ### Texts -/

/-- The encryption dictionary and the ID can be written. -/
structure SecretOk (d : List (Bytes × Obj)) (id : Obj) : Prop where
  keys : (d.map (·.1)).Nodup
  ents : WritableEnts d
  ident : Writable id

theorem numbers_below (pages : List (List Bytes)) : ∀ i ∈ (textDraft how encode pages).items, i.num < 4 + 2 * pages.length := by
  intro i hi
  rcases List.mem_append.mp hi with hi | hi
  · obtain ⟨m, hm, rfl⟩ := List.mem_map.mp hi
    unfold textObjects at hm
    rcases List.mem_append.mp hm with hm | hm
    · simp only [List.mem_cons, List.not_mem_nil, or_false] at hm
      rcases hm with rfl | rfl | rfl <;> dsimp only <;> omega
    · obtain ⟨k, hk, rfl⟩ := List.mem_map.mp hm
      obtain ⟨j, _, h'⟩ := numbers_form pages _ _ hk
      dsimp only
      omega
  · have : i.num ∈ (contentItems how encode 4 pages).map (·.num) := List.mem_map.mpr ⟨i, hi, rfl⟩
    rw [items_numbers] at this
    obtain ⟨n, hn, e⟩ := List.mem_map.mp this
    obtain ⟨j, _, h'⟩ := numbers_form pages _ _ hn
    omega

theorem secret_nums (pages : List (List Bytes)) (d : List (Bytes × Obj)) (id : Obj) : ((secretDraft how encode pages d id).items.map (·.num)).Nodup := by
  unfold secretDraft
  rw [List.map_append]
  refine List.nodup_append.mpr ⟨draft_nums pages, by simp, fun a ha b hb => ?_⟩
  obtain ⟨i, hi, rfl⟩ := List.mem_map.mp ha
  have := numbers_below pages i hi
  rw [List.map_singleton, List.mem_singleton] at hb
  dsimp only at hb ⊢
  omega

theorem secret_ok (hh : HowOk how) (pages : List (List Bytes)) {d : List (Bytes × Obj)} {id : Obj} (hs : SecretOk d id) : (secretDraft how encode pages d id).Ok where
  nonempty := by simp [secretDraft]
  vals := by
    intro i hi
    rcases List.mem_append.mp hi with hi | hi
    · exact (draft_ok hh pages).vals i hi
    · rw [List.mem_singleton] at hi
      subst hi
      exact ⟨hs.keys, hs.ents⟩
  plain := by
    intro i hi e data he
    rcases List.mem_append.mp hi with hi | hi
    · exact (draft_ok hh pages).plain i hi e data he
    · rw [List.mem_singleton] at hi
      subst hi
      cases he
  nums := secret_nums pages d id
  gens := by
    intro i hi
    rcases List.mem_append.mp hi with hi | hi
    · exact (draft_ok hh pages).gens i hi
    · rw [List.mem_singleton] at hi
      subst hi
      show 0 < 10 ^ 5
      decide
  keys := (show [b!"Size", b!"Root", b!"Encrypt", b!"ID"].Nodup by decide)
  ents := ⟨trivial, trivial, trivial, hs.ident, trivial⟩
  noPrev := (show b!"Prev" ∉ [b!"Size", b!"Root", b!"Encrypt", b!"ID"] by decide)

theorem secret_sealable (hh : HowOk how) (pages : List (List Bytes)) {d : List (Bytes × Obj)} {id : Obj} (hcount : 5 + 2 * pages.length < 4294967296) :
    (secretDraft how encode pages d id).Sealable d where
  streams := by
    intro i hi es data e
    rcases List.mem_append.mp hi with hi | hi
    · rcases List.mem_append.mp hi with hi | hi
      · obtain ⟨m, hm, rfl⟩ := List.mem_map.mp hi
        have := (objects_writable pages m hm).1
        rw [show m.2 = .stream es data from e] at this
        exact this.elim
      · obtain ⟨data', e'⟩ := items_val pages 4 i hi
        rw [e] at e'
        cases e'
        right; right; right; left
        intro hty
        have := mem_of_dictGet hty
        rcases List.mem_cons.mp this with h | h
        · cases h
        · exact hh.not (k := b!"Type") (by decide) (List.mem_map.mpr ⟨_, h, rfl⟩)
    · rw [List.mem_singleton] at hi
      subst hi
      cases e
  strings := by
    intro i hi
    rcases List.mem_append.mp hi with hi | hi
    · rcases List.mem_append.mp hi with hi | hi
      · obtain ⟨m, hm, rfl⟩ := List.mem_map.mp hi
        unfold textObjects at hm
        rcases List.mem_append.mp hm with hm | hm
        · simp only [List.mem_cons, List.not_mem_nil, or_false] at hm
          rcases hm with rfl | rfl | rfl <;> exact ⟨fun s e => (by cases e), fun s e => (by cases e)⟩
        · obtain ⟨k, _, rfl⟩ := List.mem_map.mp hm
          exact ⟨fun s e => (by cases e), fun s e => (by cases e)⟩
      · obtain ⟨data', e'⟩ := items_val pages 4 i hi
        rw [e']
        exact ⟨fun s e => (by cases e), fun s e => (by cases e)⟩
    · rw [List.mem_singleton] at hi
      subst hi
      exact ⟨fun s e => (by cases e), fun s e => (by cases e)⟩
  nums := by
    intro i hi
    rcases List.mem_append.mp hi with hi | hi
    · have := numbers_below pages i hi
      omega
    · rw [List.mem_singleton] at hi
      subst hi
      show 4 + 2 * pages.length < _
      omega

theorem items_opened (m : Method) : ∀ (pages : List (List Bytes)) (k : Nat), ∀ i ∈ contentItems how (fun x => opened m (encode x)) k pages,
    ∃ j ∈ contentItems how encode k pages, j.num = i.num ∧ i.val = openedObj m j.val
  | [], k, i, h => by cases h
  | lines :: pages, k, i, h => by
    unfold contentItems at h ⊢
    rcases List.mem_cons.mp h with rfl | h
    · exact ⟨_, List.mem_cons_self, rfl, rfl⟩
    · obtain ⟨j, hj, h'⟩ := items_opened m pages (k + 2) i h
      exact ⟨j, List.mem_cons_of_mem _ hj, h'⟩

theorem secret_content (pages : List (List Bytes)) (d : List (Bytes × Obj)) (id : Obj) : ∀ i ∈ (secretDraft how encode pages d id).items,
    contentOf ([] ++ [secretDraft how encode pages d id]) i.num i.gen = some i.val := by
  intro i hi
  unfold contentOf
  rw [List.nil_append, List.reverse_singleton, List.findSome?_cons, find_num (secret_nums pages d id) hi]
  rfl

theorem secret_has (m : Method) (pages : List (List Bytes)) (d : List (Bytes × Obj)) (id : Obj) :
    HasText (fun n g => (contentOf ([] ++ [secretDraft how encode pages d id]) n g).map (openedObj m)) how (fun x => opened m (encode x)) pages := by
  have key := secret_content (how := how) (encode := encode) pages d id
  refine ⟨fun x hx => ?_, fun i hi => ?_⟩
  · rw [key ⟨x.1, 0, x.2⟩ (List.mem_append_left _ (List.mem_append_left _ (List.mem_map.mpr ⟨x, hx, rfl⟩)))]
    have := (objects_writable pages x hx).1
    show some (openedObj m x.2) = some x.2
    cases hv : x.2 with
    | stream es data => rw [hv] at this; exact this.elim
    | _ => rfl
  · obtain ⟨j, hj, e1, e2⟩ := items_opened m pages 4 i hi
    have := key j (List.mem_append_left _ (List.mem_append_right _ hj))
    rw [items_gen pages 4 j hj, e1] at this
    rw [this, e2]
    rfl

/-- C98: texts written into an encrypted document are shown to who has the password. For all pages, each with any lines of text, any way of
encoding the contents which the filters undo, also with the padding of AES behind, every method and every user or owner password: the viewer
gives for each page, in order, its lines as texts. -/
theorem C98_texts (builtin : Builtin) (predefined : Bytes → Option CMap) (C : Crypto) (enc : Bytes → Bytes → Bytes) (hC : C.Good enc)
    (back : Env → Nat → Nat → M (Option Obj)) (clamps : Bool)
    (hbu : builtin b!"WinAnsiEncoding" = none) (hpre : predefined b!"WinAnsiEncoding" = none) (hh : HowOk how) (m : Method)
    (hundo : Undoes filtered how (fun x => opened m (encode x)))
    (pages : List (List Bytes)) (hne : pages ≠ []) (hl : ∀ lines ∈ pages, ∀ l ∈ lines, ∀ b ∈ l, b.toNat ≠ 0xA4)
    (key : Bytes) (iv : Nat → Nat → Bytes) (hiv : ∀ n g, (iv n g).length = 16) (d : List (Bytes × Obj)) (id : Obj) (hs : SecretOk d id) (hm : MethodIs d m)
    (hcount : 5 + 2 * pages.length < 4294967296) (file : Bytes) (hfile : file = writeFile [(secretDraft how encode pages d id).seal (ciphers C enc) key m iv])
    (hsmall : file.length < 10 ^ 10) (hb : clamps = true ∨ 1024 ≤ file.length)
    (hfil : dictGet d b!"Filter" = some (.name b!"Standard")) (password : Text) (pw : Bytes) (hp : utf8 password = .ok pw)
    (hun : Unlocks (ciphers C enc) (some id) d pw key) :
    ∃ F, ∀ fuel, F ≤ fuel → ∃ F', ∀ fuel', F' ≤ fuel' → ∃ doc w,
      viewFile filtered builtin predefined (secureWith C back fuel password) clamps fuel fuel' file = .ok doc ∧ openViewer doc = .ok w ∧
      (∃ is w', canvasAll doc (pages.length + 1) (false, w) = (is, none, w') ∧
        is.map (fun i => (w'.heap[i]?).map (·.strings)) = pages.map fun lines => some (lines.map (charsOf winAnsiChar))) ∧
      ∀ w, Clean doc w → ∀ (n : Nat) lines, pages[n]? = some lines → ∃ w', Viewer.navigate doc (n + 1) w = (.ok (), w') ∧
        ∃ u, w'.render = (.ok (), u) ∧ u.current.strings = lines.map (charsOf winAnsiChar) := by
  subst hfile
  have has := secret_has (how := how) (encode := encode) m pages d id
  have hlen : ((pageNumbers 4 pages).map pageEntries).length = pages.length := by rw [List.length_map, pageNumbers_length]
  have key := secret_content (how := how) (encode := encode) pages d id
  obtain ⟨dict, _, hserves⟩ := secret_serves (filtered := filtered) C enc hC back clamps _ m iv hiv [] (secretDraft how encode pages d id)
    (by intro d hd; rw [List.nil_append, List.mem_singleton] at hd; subst hd; exact secret_ok hh pages hs) d hm
    (by intro d hd; rw [List.nil_append, List.mem_singleton] at hd; subst hd; exact secret_sealable hh pages hcount) hsmall hb (4 + 2 * pages.length) 0
    rfl (key ⟨4 + 2 * pages.length, 0, .dict d⟩ (List.mem_append_right _ List.mem_cons_self)) hfil password pw hp hun 1 0 catalogDict (some b!"Catalog") rfl
    (key ⟨1, 0, .dict catalogDict⟩ (List.mem_append_left _ (List.mem_append_left _ (by simp [textObjects])))) (.typed _ rfl (by decide))
  have main := serves_shows builtin predefined hserves 2 0 (treeEntries pages) _ rfl
    (has.objects (2, .dict (treeEntries pages)) (by simp [textObjects])) rfl (text_tree has) _
    (text_pages has hundo (hh.not (by decide)) hbu hpre pages 4 hl has.contents)
    (by intro e; rw [e] at hlen; exact hne (List.length_eq_zero_iff.mp hlen.symm))
  rw [hlen] at main
  obtain ⟨F, hF⟩ := main
  refine ⟨F, fun fuel hf => ?_⟩
  obtain ⟨F', hF'⟩ := hF fuel hf
  refine ⟨F', fun fuel' hf' => ?_⟩
  obtain ⟨doc, w, h1, h2, ⟨is, w', h3, h4⟩, h5⟩ := hF' fuel' hf'
  refine ⟨doc, w, h1, h2, ⟨is, w', h3, by rw [h4, List.map_map]; rfl⟩, fun w hw n lines hn => h5 w hw n _ ?_⟩
  rw [List.getElem?_map, hn]
  rfl

/-- C98: who has no password does not get it open. -/
theorem C98_refused (C : Crypto) (enc : Bytes → Bytes → Bytes) (hC : C.Good enc) (back : Env → Nat → Nat → M (Option Obj)) (clamps : Bool)
    (key : Bytes) (m : Method) (iv : Nat → Nat → Bytes) (hiv : ∀ n g, (iv n g).length = 16) (older : List Draft) (last : Draft)
    (hok : ∀ dr ∈ older ++ [last], dr.Ok) (d : List (Bytes × Obj)) (hm : MethodIs d m) (hse : ∀ dr ∈ older ++ [last], dr.Sealable d)
    (hsmall : (writeFile ((older ++ [last]).map (Draft.seal (ciphers C enc) key m iv))).length < 10 ^ 10)
    (hb : clamps = true ∨ 1024 ≤ (writeFile ((older ++ [last]).map (Draft.seal (ciphers C enc) key m iv))).length)
    (en eg : Nat) (henc : dictGet last.trailer b!"Encrypt" = some (.ref en eg)) (hd : contentOf (older ++ [last]) en eg = some (.dict d))
    (hfil : dictGet d b!"Filter" = some (.name b!"Standard")) (password : Text) (pw : Bytes) (hp : utf8 password = .ok pw)
    (hlo : Locked (ciphers C enc) (dictGet last.trailer b!"ID") d pw) :
    ∃ F, ∀ fuel, F ≤ fuel →
      openWith C back filtered clamps fuel password (writeFile ((older ++ [last]).map (Draft.seal (ciphers C enc) key m iv))) = .error .valueError := by
  have hne : (older ++ [last]).map (Draft.seal (ciphers C enc) key m iv) ≠ [] := by simp
  have hok' : ∀ d ∈ (older ++ [last]).map (Draft.seal (ciphers C enc) key m iv), d.Ok := by
    intro d hd
    obtain ⟨d', hd', rfl⟩ := List.mem_map.mp hd
    exact seal_ok (hok d' hd')
  have hsec := sections_of _ hne hok' hsmall (fun d raw data => filtered d raw = .ok data)
  have hc := holds_sealed (X := ciphers C enc) (key := key) (iv := iv) (decoded := fun d raw data => filtered d raw = .ok data) _ hok hm hse hiv
  have hcur := content_current _ hok' (n := en) (g := eg) (o := .dict d) (by rw [content_seal, hd]; rfl)
  have hh := header_at _ hne
  have hs := starts_at _ hne
  generalize hF : writeFile ((older ++ [last]).map (Draft.seal (ciphers C enc) key m iv)) = file at *
  rw [List.map_append, List.map_singleton] at hsec hc hcur hs
  obtain ⟨r, rs, e, prev, hdict⟩ := revs_cons (older.map (Draft.seal (ciphers C enc) key m iv)) (last.seal (ciphers C enc) key m iv) fileHeader.length none
  rw [e] at hsec hc hcur
  have hdict' : ∀ k, k ≠ b!"Prev" → dictGet r.dict k = dictGet last.trailer k := fun k hk => by rw [hdict, dict_other _ _ _ hk]; rfl
  refine ⟨rs.length + 6, fun fuel hf => C97_refused C enc hC back clamps file _ 0 _ r rs _ hh hs hb hsec en eg d ?_ ?_ hcur hfil password pw key hp ?_ hc fuel hf⟩
  · rw [hdict' _ (by decide)]; exact henc
  · rw [hd]; rfl
  · rw [hdict' _ (by decide)]; exact hlo

/-! ### Documents -/

theorem toy_good : toyCrypto.Good toyEnc := ⟨toy_md5, toy_sha, toy_aes⟩

def toyIdent : Obj := .arr [.hex b!"0102", .hex b!"0102"]

/-- RC4, version 1. -/
def toyE1 : EncInfo :=
  let o := entryO (ciphers toyCrypto toyEnc) ⟨1, 2, 5, -4, [1, 2], [], [], true⟩ b!"owner" b!"user"
  ⟨1, 2, 5, -4, [1, 2], o, (ciphers toyCrypto toyEnc).rc4 (fileKey (ciphers toyCrypto toyEnc) ⟨1, 2, 5, -4, [1, 2], o, [], true⟩ b!"user") padding, true⟩

def toyKey : Bytes := fileKey (ciphers toyCrypto toyEnc) toyE1 b!"user"

theorem toy_user1 : UserEntry (ciphers toyCrypto toyEnc) toyE1 toyKey := by
  unfold UserEntry
  rw [if_pos (show toyE1.r = 2 from rfl)]
  decide +kernel

def secretDict : List (Bytes × Obj) :=
  [(b!"Filter", .name b!"Standard"), (b!"V", .int 1), (b!"R", .int 2), (b!"P", .int (-4)), (b!"O", .str toyE1.o), (b!"U", .str toyE1.u)]

theorem secret_describes : Describes (some toyIdent) secretDict toyE1 := by
  refine ⟨⟨b!"0102", [.hex b!"0102"], rfl, ?_⟩, rfl, rfl, rfl, by decide, Or.inl rfl, Or.inl rfl, Or.inl ⟨by decide, rfl, Or.inl ⟨rfl, rfl⟩⟩⟩
  exact ⟨48, 49, _, rfl, 0, 1, rfl, rfl, rfl, 48, 50, _, rfl, 0, 2, rfl, rfl, rfl, rfl⟩

/-- AES-256, version 5. -/
def secretDict5 : List (Bytes × Obj) := (b!"Filter", .name b!"Standard") :: toyDict5

theorem secret_describes5 : Describes5 (some toyIdent) secretDict5 toyE5 := by
  refine ⟨⟨b!"0102", [.hex b!"0102"], [1, 2], rfl, ?_⟩, rfl, rfl, rfl, Or.inl rfl, Or.inl rfl, rfl, rfl, ?_, rfl, rfl, rfl, rfl, rfl, rfl⟩
  · exact ⟨48, 49, _, rfl, 0, 1, rfl, rfl, rfl, 48, 50, _, rfl, 0, 2, rfl, rfl, rfl, rfl⟩
  · refine ⟨[(b!"StdCF", .dict [(b!"CFM", .name b!"AESV3")])], b!"StdCF", b!"StdCF", rfl, ?_, rfl, rfl, by decide, by decide⟩
    intro e he
    rw [List.mem_singleton] at he
    subst he
    exact ⟨_, _, rfl, rfl, by decide⟩

theorem toy_hex : Writable (.hex b!"0102") := by
  unfold Writable
  decide +kernel

theorem secret_dict_ok : SecretOk secretDict toyIdent :=
  ⟨(show [b!"Filter", b!"V", b!"R", b!"P", b!"O", b!"U"].Nodup by decide), ⟨trivial, trivial, trivial, trivial, trivial, trivial, trivial⟩,
    toy_hex, toy_hex, trivial⟩

theorem secret_dict5_ok : SecretOk secretDict5 toyIdent :=
  ⟨(show [b!"Filter", b!"V", b!"R", b!"P", b!"O", b!"U", b!"OE", b!"UE", b!"CF", b!"StmF", b!"StrF"].Nodup by decide),
    ⟨trivial, trivial, trivial, trivial, trivial, trivial, trivial, trivial, ⟨by decide, ⟨by decide, trivial, trivial⟩, trivial⟩, trivial, trivial, trivial⟩,
    toy_hex, toy_hex, trivial⟩

def toyIv : Nat → Nat → Bytes := fun n _ => List.replicate 16 (UInt8.ofNat n)

/-- The letter encrypted with RC4, opened with the user password. -/
example (x : Ext) (back : Env → Nat → Nat → M (Option Obj)) :
    ∃ F, ∀ fuel, F ≤ fuel → ∃ F', ∀ fuel', F' ≤ fuel' → ∃ doc w,
      viewFile (streamData x) (fun _ => none) (fun _ => none) (secureWith toyCrypto back fuel [117, 115, 101, 114]) true fuel fuel'
        (writeFile [(secretDraft [] id letterPages secretDict toyIdent).seal (ciphers toyCrypto toyEnc) toyKey .rc4 toyIv]) =
          .ok doc ∧
      openViewer doc = .ok w ∧
      ∃ is w', canvasAll doc 3 (false, w) = (is, none, w') ∧ is.map (fun i => (w'.heap[i]?).map (·.strings)) =
        [some [(b!"Dear (all),").map (·.toNat), [105, 116, 0x2019, 115, 32, 109, 101]], some [(b!"Yours").map (·.toNat), []]] := by
  obtain ⟨F, hF⟩ := C98_texts (how := []) (encode := id) (filtered := streamData x) (fun _ => none) (fun _ => none) toyCrypto toyEnc toy_good back true rfl rfl how_plain .rc4
    (undoes_plain x) letterPages (by decide) letter_bytes _ toyIv (fun _ _ => List.length_replicate) secretDict toyIdent secret_dict_ok
    ⟨1, rfl, Or.inl ⟨Or.inl rfl, rfl⟩⟩ (by decide) _ rfl
    (by decide +kernel) (Or.inl rfl) rfl [117, 115, 101, 114] b!"user" rfl (.user toyE1 secret_describes toy_user1)
  refine ⟨F, fun fuel hf => ?_⟩
  obtain ⟨F', hF'⟩ := hF fuel hf
  refine ⟨F', fun fuel' hf' => ?_⟩
  obtain ⟨doc, w, h1, h2, ⟨is, w', h3, h4⟩, _⟩ := hF' fuel' hf'
  exact ⟨doc, w, h1, h2, is, w', h3, h4.trans letter_chars⟩

/-- ASCIIHexDecode does not mind the padding. -/
theorem undoes_hex_padded (x : Ext) : Undoes (streamData x) [(b!"Filter", .name b!"ASCIIHexDecode")] (fun data => opened .aes256 (toHex data)) := by
  intro d data hf hp
  rw [show dictGet [(b!"Filter", Obj.name b!"ASCIIHexDecode")] b!"Filter" = some (.name b!"ASCIIHexDecode") from rfl] at hf
  rw [show dictGet [(b!"Filter", Obj.name b!"ASCIIHexDecode")] b!"DecodeParms" = none from rfl] at hp
  rw [(C79_direct_partial x d _).2.2.1 _ (by simp) hf hp]
  have e : applyFilter x b!"ASCIIHexDecode" (toHex data ++ pkcs (toHex data)) (.dict none none) = .ok data := by
    show Except.ok (asciiHexDecode (toHex data ++ pkcs (toHex data))) = _
    have := C01_asciihex_decodes data _ (62 :: pkcs (toHex data)) (toHex_enc data) (Or.inr ⟨_, rfl⟩)
    rw [show toHex data ++ pkcs (toHex data) = (data.flatMap fun c => [Spec.hexOf (c.toNat / 16), Spec.hexOf (c.toNat % 16)]) ++ 62 :: pkcs (toHex data) from
      List.append_assoc _ [62] _, this]
  show (match applyFilter x b!"ASCIIHexDecode" (toHex data ++ pkcs (toHex data)) (.dict none none) with
    | .error e => (.error e : Res Bytes) | .ok d => decodeChain x [] d) = _
  rw [e]
  rfl

/-- The letter encrypted with AES-256, opened with the owner password. -/
example (x : Ext) (back : Env → Nat → Nat → M (Option Obj)) :
    ∃ F, ∀ fuel, F ≤ fuel → ∃ F', ∀ fuel', F' ≤ fuel' → ∃ doc w,
      viewFile (streamData x) (fun _ => none) (fun _ => none) (secureWith toyCrypto back fuel [111, 119, 110, 101, 114]) true fuel fuel'
        (writeFile [(secretDraft [(b!"Filter", .name b!"ASCIIHexDecode")] toHex letterPages secretDict5 toyIdent).seal (ciphers toyCrypto toyEnc)
          (List.replicate 16 5 ++ List.replicate 16 6) .aes256 toyIv]) = .ok doc ∧
      openViewer doc = .ok w ∧
      ∃ is w', canvasAll doc 3 (false, w) = (is, none, w') ∧ is.map (fun i => (w'.heap[i]?).map (·.strings)) =
        [some [(b!"Dear (all),").map (·.toNat), [105, 116, 0x2019, 115, 32, 109, 101]], some [(b!"Yours").map (·.toNat), []]] := by
  obtain ⟨F, hF⟩ := C98_texts (filtered := streamData x) (fun _ => none) (fun _ => none) toyCrypto toyEnc toy_good back true rfl rfl how_hex .aes256
    (undoes_hex_padded x) letterPages (by decide) letter_bytes _ toyIv (fun _ _ => List.length_replicate) secretDict5 toyIdent secret_dict5_ok
    ⟨5, rfl, Or.inr (Or.inr ⟨Or.inr rfl, b!"StdCF", _, _, _, rfl, by decide, rfl, rfl, rfl, Or.inr (Or.inr ⟨rfl, rfl⟩)⟩)⟩ (by decide) _ rfl
    (by decide +kernel) (Or.inl rfl) rfl [111, 119, 110, 101, 114] b!"owner" rfl (.owner5 toyE5 (List.replicate 16 5) (List.replicate 16 6) secret_describes5 rfl rfl ⟨rfl, rfl⟩)
  refine ⟨F, fun fuel hf => ?_⟩
  obtain ⟨F', hF'⟩ := hF fuel hf
  refine ⟨F', fun fuel' hf' => ?_⟩
  obtain ⟨doc, w, h1, h2, ⟨is, w', h3, h4⟩, _⟩ := hF' fuel' hf'
  exact ⟨doc, w, h1, h2, is, w', h3, h4.trans letter_chars⟩

/-- It does not open with another password. -/
example (x : Ext) (back : Env → Nat → Nat → M (Option Obj)) : ∃ F, ∀ fuel, F ≤ fuel →
    openWith toyCrypto back (streamData x) true fuel [103, 117, 101, 115, 115]
      (writeFile (([] ++ [secretDraft [] id letterPages secretDict5 toyIdent]).map (Draft.seal (ciphers toyCrypto toyEnc) (List.replicate 16 5 ++ List.replicate 16 6)
        .aes256 toyIv))) = .error .valueError :=
  C98_refused toyCrypto toyEnc toy_good back true _ .aes256 toyIv (fun _ _ => List.length_replicate) [] _
    (by intro d hd; rw [List.nil_append, List.mem_singleton] at hd; subst hd; exact secret_ok how_plain _ secret_dict5_ok) secretDict5
    ⟨5, rfl, Or.inr (Or.inr ⟨Or.inr rfl, b!"StdCF", _, _, _, rfl, by decide, rfl, rfl, rfl, Or.inr (Or.inr ⟨rfl, rfl⟩)⟩)⟩
    (by intro d hd; rw [List.nil_append, List.mem_singleton] at hd; subst hd; exact secret_sealable how_plain _ (by decide))
    (by decide +kernel) (Or.inl rfl) 8 0 rfl (secret_content letterPages secretDict5 toyIdent ⟨8, 0, .dict secretDict5⟩ (List.mem_append_right _ List.mem_cons_self)) rfl _ b!"guess" rfl
    (.mk5 toyE5 secret_describes5 (by decide +kernel) (by decide +kernel))


/-- Two revisions; the second one replaces a page and adds a stream. -/
def secretFirst : Draft := { firstDraft with items := firstDraft.items ++ [⟨9, 0, .dict secretDict⟩] }
def secretSecond : Draft := { secondDraft with trailer := [(b!"Size", .int 10), (b!"Root", .ref 1 0), (b!"Encrypt", .ref 9 0), (b!"ID", toyIdent)] }

theorem secret_drafts_ok : ∀ d ∈ [secretFirst] ++ [secretSecond], d.Ok := by
  have h1 := drafts_ok firstDraft (by simp)
  have h2 := drafts_ok secondDraft (by simp)
  intro d hd
  simp only [List.cons_append, List.nil_append, List.mem_cons, List.not_mem_nil, or_false] at hd
  rcases hd with rfl | rfl
  · refine ⟨by simp [secretFirst], ?_, ?_, by decide, ?_, h1.keys, h1.ents, h1.noPrev⟩
    · intro i hi
      rcases List.mem_append.mp hi with hi | hi
      · exact h1.vals i hi
      · rw [List.mem_singleton] at hi
        subst hi
        exact ⟨secret_dict_ok.keys, secret_dict_ok.ents⟩
    · intro i hi e data he
      rcases List.mem_append.mp hi with hi | hi
      · exact h1.plain i hi e data he
      · rw [List.mem_singleton] at hi
        subst hi
        cases he
    · intro i hi
      rcases List.mem_append.mp hi with hi | hi
      · exact h1.gens i hi
      · rw [List.mem_singleton] at hi
        subst hi
        decide
  · exact ⟨h2.nonempty, h2.vals, h2.plain, h2.nums, h2.gens, (show [b!"Size", b!"Root", b!"Encrypt", b!"ID"].Nodup by decide),
      ⟨trivial, trivial, trivial, secret_dict_ok.ident, trivial⟩, (show b!"Prev" ∉ [b!"Size", b!"Root", b!"Encrypt", b!"ID"] by decide)⟩

/-- The hypotheses of C98_read_back are met: the stream of the second revision is read, decrypted. -/
example (x : Ext) (back : Env → Nat → Nat → M (Option Obj)) : ∃ F, ∀ fuel, F ≤ fuel → ∃ doc,
    openWith toyCrypto back (streamData x) true fuel [117, 115, 101, 114]
      (writeFile (([secretFirst] ++ [secretSecond]).map (Draft.seal (ciphers toyCrypto toyEnc) toyKey .rc4 toyIv))) =
        .ok (doc, .dict (some b!"Catalog") [(b!"Type", .name b!"Catalog"), (b!"Pages", .ref 2 0)]) ∧
    (locate doc.env fuel 5 0 (asked doc.env fuel [(4, 0), (9, 0)] doc.st)).1 = .ok (.stream [(b!"Length", .int 13)] b!"BT (a) Tj ET\n") := by
  have hcont : contentOf ([secretFirst] ++ [secretSecond]) 5 0 = some (.stream [(b!"Length", .int 13)] b!"BT (a) Tj ET\n") := rfl
  obtain ⟨F, hF⟩ := C98_read_back (filtered := streamData x) toyCrypto toyEnc toy_good back true toyKey .rc4 toyIv
    (fun _ _ => List.length_replicate) [secretFirst] secretSecond secret_drafts_ok secretDict ⟨1, rfl, Or.inl ⟨Or.inl rfl, rfl⟩⟩
    (by
      intro dr _
      exact ⟨fun i _ es data _ => Or.inl rfl, by
        rename_i h
        simp only [List.cons_append, List.nil_append, List.mem_cons, List.not_mem_nil, or_false] at h
        rcases h with rfl | rfl
        · intro i hi
          simp only [secretFirst, firstDraft, List.cons_append, List.nil_append, List.mem_cons, List.not_mem_nil, or_false] at hi
          rcases hi with rfl | rfl | rfl | rfl | rfl <;> exact ⟨fun s e => (by cases e), fun s e => (by cases e)⟩
        · intro i hi
          simp only [secretSecond, secondDraft, List.mem_cons, List.not_mem_nil, or_false] at hi
          rcases hi with rfl | rfl <;> exact ⟨fun s e => (by cases e), fun s e => (by cases e)⟩, by
        rename_i h
        simp only [List.cons_append, List.nil_append, List.mem_cons, List.not_mem_nil, or_false] at h
        rcases h with rfl | rfl
        · intro i hi
          simp only [secretFirst, firstDraft, List.cons_append, List.nil_append, List.mem_cons, List.not_mem_nil, or_false] at hi
          rcases hi with rfl | rfl | rfl | rfl | rfl <;> decide
        · intro i hi
          simp only [secretSecond, secondDraft, List.mem_cons, List.not_mem_nil, or_false] at hi
          rcases hi with rfl | rfl <;> decide⟩)
    (by decide +kernel) (Or.inl rfl) 9 0 rfl rfl rfl [117, 115, 101, 114] b!"user" rfl (.user toyE1 secret_describes toy_user1) 1 0 _ (some b!"Catalog") rfl rfl
    (.typed _ rfl (by decide))
  refine ⟨F, fun fuel hf => ?_⟩
  obtain ⟨doc, h1, _, _, h2⟩ := hF fuel hf
  refine ⟨doc, h1, ?_⟩
  have := h2 [(4, 0), (9, 0)] (by
    intro k hk
    simp only [List.mem_cons, List.not_mem_nil, or_false] at hk
    rcases hk with rfl | rfl <;> exact fun e => (by cases e)) 5 0 _ hcont
  rw [C98_exact .rc4 (Or.inl rfl) _ secret_drafts_ok 5 0 _ hcont] at this
  exact this

end PdfReader
