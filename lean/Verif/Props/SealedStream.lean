/-
  C148: what was written encrypted, with an object stream and a cross-reference stream, is read back with the password.
-/
import Verif.Props.SecretFile
import Verif.Props.Compressed
import Verif.Lemmas.SealedStream

namespace PdfReader

open Spec

variable {filtered : List (Bytes × Obj) → Bytes → Res Bytes} {how : List (Bytes × Obj)} {encode : Bytes → Bytes}

theorem decoded_fun : ∀ (d : List (Bytes × Obj)) (raw a b : Bytes), filtered d raw = .ok a → filtered d raw = .ok b → a = b :=
  fun _ _ _ _ h1 h2 => by rw [h1] at h2; cases h2; rfl

theorem item_current {c : Compressed} (hc : c.Ok) {i : FileItem} (h : i ∈ c.body) : ∃ off, CurrentAt [revC c] i.num i.gen off := by
  obtain ⟨a, b, e⟩ := List.append_of_mem (List.mem_append_left [c.xrefItem] h)
  exact ⟨_, [], _, [], rfl, (fun q hq => by simp at hq), inUse_item hc e⟩

/-- It opens with its password, and holds what was written. -/
theorem sealed_stream_serves (C : Crypto) (enc : Bytes → Bytes → Bytes) (hC : C.Good enc) (back : Env → Nat → Nat → M (Option Obj)) (clamps : Bool)
    (key : Bytes) (m : Method) (iv : Nat → Nat → Bytes) (hiv : ∀ n g, (iv n g).length = 16) (c : Compressed) (hc : c.Ok)
    (hundo : Undoes filtered c.how c.encode) (hundo' : Undoes filtered c.how fun x => opened m (c.encode x))
    (d : List (Bytes × Obj)) (hm : MethodIs d m) (hse : c.Sealable d) (file : Bytes) (hfile : file = (c.seal (ciphers C enc) key m iv).write)
    (hsmall : file.length < 256 ^ 4) (hb : clamps = true ∨ 1024 ≤ file.length)
    (en eg : Nat) (henc : dictGet c.trailer b!"Encrypt" = some (.ref en eg)) (hd : ⟨en, eg, .dict d⟩ ∈ c.items)
    (hfil : dictGet d b!"Filter" = some (.name b!"Standard")) (password : Text) (pw : Bytes) (hp : utf8 password = .ok pw)
    (hun : Unlocks (ciphers C enc) (dictGet c.trailer b!"ID") d pw key)
    (a b : Nat) (catalog : List (Bytes × Obj)) (k : Option Bytes) (hroot : dictGet c.trailer b!"Root" = some (.ref a b))
    (hcat : c.openedContent m a b = some (.dict catalog)) (hcls : DictKind catalog k) :
    ∃ dict, (∀ k v, dictGet c.trailer k = some v → dictGet dict k = some v) ∧
      Serves filtered (fun fuel => secureWith C back fuel password) clamps file b!"1.7" dict k catalog (c.openedContent m) := by
  subst hfile
  have hc' := seal_compressed_ok hc hsmall
  have hsec := sections_sealed (decoded := fun d raw data => filtered d raw = .ok data) hc' hundo
  have hh := holds_sealed_compressed (X := ciphers C enc) (key := key) (decoded := fun d raw data => filtered d raw = .ok data) hc hsmall hundo' decoded_fun hm hse hiv
  have hbody : (⟨en, eg, .dict d⟩ : FileItem) ∈ c.body := List.mem_append_left _ hd
  have hcur : ∃ off, CurrentAt [revC (c.seal (ciphers C enc) key m iv)] en eg off :=
    item_current hc' (i := sealItem (ciphers C enc) key m iv ⟨en, eg, .dict d⟩) (by rw [seal_body]; exact List.mem_map.mpr ⟨_, hbody, rfl⟩)
  have hdc : c.openedContent m en eg = some (.dict d) := opened_item hc hbody
  have htr : ∀ {k v}, dictGet c.trailer k = some v → dictGet (revC (c.seal (ciphers C enc) key m iv)).dict k = some v := fun h => xref_trailer hc' h
  refine ⟨_, fun k v => htr, sealed_serves C enc hC (fun _ => back) clamps _ _ 0 _ _ [] _ (header_compressed _) (starts_compressed _) hb hsec en eg d (htr henc) hdc _
    (listed_found back hh hdc hcur hfil) hfil password pw key hp ?_ hh a b catalog k (htr hroot) hcat hcls⟩
  cases hid : dictGet c.trailer b!"ID" with
  | some v => rw [htr hid, ← hid]; exact hun
  | none =>
    exfalso
    rw [hid] at hun
    cases hun with
    | user E h1 _ => obtain ⟨⟨h, rest, e, _⟩, _⟩ := h1; cases e
    | owner E user h1 _ => obtain ⟨⟨h, rest, e, _⟩, _⟩ := h1; cases e
    | user5 E k1 k2 h1 _ => obtain ⟨⟨h, rest, _, e, _⟩, _⟩ := h1; cases e
    | owner5 E k1 k2 h1 _ => obtain ⟨⟨h, rest, _, e, _⟩, _⟩ := h1; cases e

/-- C148: a document written with an object stream, which is encrypted, and a cross-reference stream, which is not, opens with the user or the owner
password; the user sees the entries of the trailer, and every object asked for, be it written by itself or in the object stream, is the one
written, whatever was asked for before: what is in the object stream is not decrypted again. Streams have the padding of AES behind their data (C71). -/
theorem C148_read_back (C : Crypto) (enc : Bytes → Bytes → Bytes) (hC : C.Good enc) (back : Env → Nat → Nat → M (Option Obj)) (clamps : Bool)
    (key : Bytes) (m : Method) (iv : Nat → Nat → Bytes) (hiv : ∀ n g, (iv n g).length = 16) (c : Compressed) (hc : c.Ok)
    (hundo : Undoes filtered c.how c.encode) (hundo' : Undoes filtered c.how fun x => opened m (c.encode x))
    (d : List (Bytes × Obj)) (hm : MethodIs d m) (hse : c.Sealable d) (file : Bytes) (hfile : file = (c.seal (ciphers C enc) key m iv).write)
    (hsmall : file.length < 256 ^ 4) (hb : clamps = true ∨ 1024 ≤ file.length)
    (en eg : Nat) (henc : dictGet c.trailer b!"Encrypt" = some (.ref en eg)) (hd : ⟨en, eg, .dict d⟩ ∈ c.items)
    (hfil : dictGet d b!"Filter" = some (.name b!"Standard")) (password : Text) (pw : Bytes) (hp : utf8 password = .ok pw)
    (hun : Unlocks (ciphers C enc) (dictGet c.trailer b!"ID") d pw key)
    (a b : Nat) (catalog : List (Bytes × Obj)) (k : Option Bytes) (hroot : dictGet c.trailer b!"Root" = some (.ref a b))
    (hcat : c.openedContent m a b = some (.dict catalog)) (hcls : DictKind catalog k) :
    ∃ F, ∀ fuel, F ≤ fuel → ∃ doc, openWith C back filtered clamps fuel password file = .ok (doc, .dict k catalog) ∧ doc.version = b!"1.7" ∧
      (∀ key ∈ [b!"Root", b!"Encrypt", b!"Info", b!"ID"], ∀ v, dictGet c.trailer key = some v → dictGet doc.trailer key = some v) ∧
      ∀ history : List (Nat × Nat), (∀ q ∈ history, c.openedContent m q.1 q.2 ≠ none) →
        (∀ i ∈ c.items, (locate doc.env fuel i.num i.gen (asked doc.env fuel history doc.st)).1 = .ok (openedObj m i.val)) ∧
        ∀ x ∈ c.members, (locate doc.env fuel x.1 0 (asked doc.env fuel history doc.st)).1 = .ok x.2 := by
  obtain ⟨dict, hdict, F, hF⟩ := sealed_stream_serves (filtered := filtered) C enc hC back clamps key m iv hiv c hc hundo hundo' d hm hse file hfile hsmall hb en eg henc hd hfil
    password pw hp hun a b catalog k hroot hcat hcls
  refine ⟨F, fun fuel hf => ?_⟩
  obtain ⟨doc, e, hv, ht, I, hI, hdel⟩ := hF fuel hf
  refine ⟨doc, e, hv, fun key hkey v hv => (ht key ?_).1 v (hdict _ _ hv), fun history hh => ?_⟩
  · simp only [List.mem_cons, List.not_mem_nil, or_false] at hkey ⊢
    rcases hkey with h | h | h | h <;> simp [h]
  · have hasked := asked_keeps (hdel fuel hf) history doc.st hI hh
    exact ⟨fun i hi => (hdel fuel hf _ _ _ _ hasked (opened_item hc (List.mem_append_left _ hi))).1, fun x hx => (hdel fuel hf _ _ _ _ hasked (opened_member hc hx)).1⟩

/-- C148: without padding, what is read is what was written. -/
theorem C148_exact (m : Method) (hm : m = .rc4 ∨ m = .identity) (c : Compressed) (hc : c.Ok) : ∀ i ∈ c.items, openedObj m i.val = i.val := by
  intro i hi
  have hw := hc.vals i hi
  have ho : ∀ data, opened m data = data := by
    intro data
    rcases hm with rfl | rfl <;> rfl
  cases hv : i.val with
  | stream es data =>
    rw [hv] at hw
    obtain ⟨h1, _, h3⟩ := hw
    show Obj.stream (dictSet es _ _) _ = _
    rw [ho, dictSet_same h1 h3]
  | _ => rfl

/-- C148: the pages of such a document, and what they show. -/
theorem C148_shows (builtin : Builtin) (predefined : Bytes → Option CMap) (C : Crypto) (enc : Bytes → Bytes → Bytes) (hC : C.Good enc) (back : Env → Nat → Nat → M (Option Obj)) (clamps : Bool)
    (key : Bytes) (m : Method) (iv : Nat → Nat → Bytes) (hiv : ∀ n g, (iv n g).length = 16) (c : Compressed) (hc : c.Ok)
    (hundo : Undoes filtered c.how c.encode) (hundo' : Undoes filtered c.how fun x => opened m (c.encode x))
    (d : List (Bytes × Obj)) (hm : MethodIs d m) (hse : c.Sealable d) (file : Bytes) (hfile : file = (c.seal (ciphers C enc) key m iv).write)
    (hsmall : file.length < 256 ^ 4) (hb : clamps = true ∨ 1024 ≤ file.length)
    (en eg : Nat) (henc : dictGet c.trailer b!"Encrypt" = some (.ref en eg)) (hd : ⟨en, eg, .dict d⟩ ∈ c.items)
    (hfil : dictGet d b!"Filter" = some (.name b!"Standard")) (password : Text) (pw : Bytes) (hp : utf8 password = .ok pw)
    (hun : Unlocks (ciphers C enc) (dictGet c.trailer b!"ID") d pw key)
    (a b : Nat) (catalog : List (Bytes × Obj)) (k : Option Bytes) (hroot : dictGet c.trailer b!"Root" = some (.ref a b))
    (hcat : c.openedContent m a b = some (.dict catalog)) (hcls : DictKind catalog k)
    (n g : Nat) (node : List (Bytes × Obj)) (ps : List (List (Bytes × Obj))) (hpages : dictGet catalog b!"Pages" = some (.ref n g))
    (hnode : c.openedContent m n g = some (.dict node)) (htype : dictGet node b!"Type" = some (.name b!"Pages")) (htree : PageTree (c.openedContent m) n g ps) :
    (∃ F, ∀ fuel, F ≤ fuel → ∃ doc, openWith C back filtered clamps fuel password file = .ok (doc, .dict k catalog) ∧
      ∃ F', ∀ fuel', F' ≤ fuel' → ∃ s', docPages (locate doc.env fuel) fuel' (.dict k catalog) doc.st = (ps.map asPage, none, s')) ∧
    ∀ (tss : List (List Text)), PagesShow (c.openedContent m) filtered builtin predefined ps tss → ps ≠ [] →
    ∃ F, ∀ fuel, F ≤ fuel → ∃ F', ∀ fuel', F' ≤ fuel' → ∃ doc w,
      viewFile filtered builtin predefined (secureWith C back fuel password) clamps fuel fuel' file = .ok doc ∧ openViewer doc = .ok w ∧
      (∃ is w', canvasAll doc (ps.length + 1) (false, w) = (is, none, w') ∧ is.map (fun i => (w'.heap[i]?).map (·.strings)) = tss.map some) ∧
      ∀ w, Clean doc w → ∀ (n : Nat) ts, tss[n]? = some ts → ∃ w', Viewer.navigate doc (n + 1) w = (.ok (), w') ∧
        ∃ u, w'.render = (.ok (), u) ∧ u.current.strings = ts := by
  obtain ⟨dict, _, h⟩ := sealed_stream_serves (filtered := filtered) C enc hC back clamps key m iv hiv c hc hundo hundo' d hm hse file hfile hsmall hb en eg henc hd hfil
    password pw hp hun a b catalog k hroot hcat hcls
  exact ⟨serves_pages h n g node ps hpages hnode htype htree, fun tss hshow hne => serves_shows builtin predefined h n g node ps hpages hnode htype htree tss hshow hne⟩

/-- C148: who has no password does not get it open. -/
theorem C148_refused (C : Crypto) (enc : Bytes → Bytes → Bytes) (hC : C.Good enc) (back : Env → Nat → Nat → M (Option Obj)) (clamps : Bool)
    (key : Bytes) (m : Method) (iv : Nat → Nat → Bytes) (hiv : ∀ n g, (iv n g).length = 16) (c : Compressed) (hc : c.Ok)
    (hundo : Undoes filtered c.how c.encode) (hundo' : Undoes filtered c.how fun x => opened m (c.encode x))
    (d : List (Bytes × Obj)) (hm : MethodIs d m) (hse : c.Sealable d) (file : Bytes) (hfile : file = (c.seal (ciphers C enc) key m iv).write)
    (hsmall : file.length < 256 ^ 4) (hb : clamps = true ∨ 1024 ≤ file.length)
    (en eg : Nat) (henc : dictGet c.trailer b!"Encrypt" = some (.ref en eg)) (hd : ⟨en, eg, .dict d⟩ ∈ c.items)
    (hfil : dictGet d b!"Filter" = some (.name b!"Standard")) (password : Text) (pw : Bytes) (hp : utf8 password = .ok pw)
    (id : Obj) (hid : dictGet c.trailer b!"ID" = some id) (hlo : Locked (ciphers C enc) (some id) d pw) :
    ∃ F, ∀ fuel, F ≤ fuel → openWith C back filtered clamps fuel password file = .error .valueError := by
  subst hfile
  have hc' := seal_compressed_ok hc hsmall
  have hsec := sections_sealed (decoded := fun d raw data => filtered d raw = .ok data) hc' hundo
  have hh := holds_sealed_compressed (X := ciphers C enc) (key := key) (decoded := fun d raw data => filtered d raw = .ok data) hc hsmall hundo' decoded_fun hm hse hiv
  have hbody : (⟨en, eg, .dict d⟩ : FileItem) ∈ c.body := List.mem_append_left _ hd
  have hcur : ∃ off, CurrentAt [revC (c.seal (ciphers C enc) key m iv)] en eg off :=
    item_current hc' (i := sealItem (ciphers C enc) key m iv ⟨en, eg, .dict d⟩) (by rw [seal_body]; exact List.mem_map.mpr ⟨_, hbody, rfl⟩)
  have htr : ∀ {k v}, dictGet c.trailer k = some v → dictGet (revC (c.seal (ciphers C enc) key m iv)).dict k = some v := fun h => xref_trailer hc' h
  exact ⟨6, fun fuel hf => C97_refused C enc hC back clamps _ _ 0 _ _ [] _ (header_compressed _) (starts_compressed _) hb hsec en eg d (htr henc) (opened_item hc hbody) hcur hfil
    password pw key hp (by rw [htr hid]; exact hlo) hh fuel (by simpa using hf)⟩

/-! ### Texts -/

theorem secret_packed_ok (hh : HowOk how) (pages : List (List Bytes)) {d : List (Bytes × Obj)} {id : Obj} (hs : SecretOk d id)
    (hsmall : (secretPacked how encode pages d id).write.length < 256 ^ 4) (hcount : 2 * pages.length + 6 < 256 ^ 4) :
    (secretPacked how encode pages d id).Ok where
  vals := by
    intro i hi
    rcases List.mem_append.mp hi with hi | hi
    · exact content_writable hh pages 4 i hi
    · rw [List.mem_singleton] at hi
      subst hi
      exact writable_value ⟨hs.keys, hs.ents⟩
  plain := by
    intro i hi e data he
    rcases List.mem_append.mp hi with hi | hi
    · exact content_plain hh pages 4 i hi e data he
    · rw [List.mem_singleton] at hi
      subst hi
      cases he
  mems := objects_writable pages
  nums := by
    show ((contentItems how encode 4 pages ++ [(⟨6 + 2 * pages.length, 0, .dict d⟩ : FileItem)]).map (·.num) ++ ((textObjects pages).map (·.1) ++ [4 + 2 * pages.length, 5 + 2 * pages.length])).Nodup
    have h := packed_nums (how := how) (encode := encode) pages
    rw [List.map_append, List.append_assoc]
    refine (List.perm_middle.nodup_iff).mpr (List.nodup_cons.mpr ⟨fun hmem => ?_, h⟩)
    have hsz : ∀ a ∈ (contentItems how encode 4 pages).map (·.num) ++ ((textObjects pages).map (·.1) ++ [4 + 2 * pages.length, 5 + 2 * pages.length]), a < 6 + 2 * pages.length := by
      intro a ha
      rcases List.mem_append.mp ha with ha | ha
      · rw [items_numbers] at ha
        obtain ⟨n, hn, rfl⟩ := List.mem_map.mp ha
        obtain ⟨j, _, h'⟩ := numbers_form pages _ _ hn
        omega
      · rcases List.mem_append.mp ha with ha | ha
        · unfold textObjects at ha
          rw [List.map_append, List.map_map] at ha
          rcases List.mem_append.mp ha with ha | ha
          · simp only [List.map_cons, List.map_nil, List.mem_cons, List.not_mem_nil, or_false] at ha
            omega
          · have e : (fun x : Nat × Obj => x.1) ∘ (fun k => (k, Obj.dict (pageEntries k))) = _root_.id := rfl
            rw [e, List.map_id] at ha
            obtain ⟨j, _, h'⟩ := numbers_form pages _ _ ha
            omega
        · simp only [List.mem_cons, List.not_mem_nil, or_false] at ha
          omega
    exact Nat.lt_irrefl _ (hsz _ hmem)
  gens := by
    intro i hi
    rcases List.mem_append.mp hi with hi | hi
    · rw [items_gen pages 4 i hi]
      decide
    · rw [List.mem_singleton] at hi
      subst hi
      show 0 < _
      decide
  count := by
    show (textObjects pages).length < _
    unfold textObjects
    rw [List.length_append, List.length_map, pageNumbers_length]
    simp only [List.length_cons, List.length_nil]
    omega
  number := by
    show 4 + 2 * pages.length < _
    omega
  length := hsmall
  keys := (show [b!"Root", b!"Encrypt", b!"ID"].Nodup by decide)
  ents := ⟨trivial, trivial, hs.ident, trivial⟩
  reserved := by
    show ∀ k ∈ _, k ∉ [b!"Root", b!"Encrypt", b!"ID"]
    decide
  howKeys := hh.keys
  howOnly := hh.only
  howEnts := hh.ents

theorem secret_packed_sealable (hh : HowOk how) (pages : List (List Bytes)) {d : List (Bytes × Obj)} {id : Obj} (hcount : 2 * pages.length + 6 < 256 ^ 4) :
    (secretPacked how encode pages d id).Sealable d where
  streams := by
    intro i hi es data e
    rcases List.mem_append.mp hi with hi | hi
    · obtain ⟨data', e'⟩ := items_val pages 4 i hi
      rw [e] at e'
      cases e'
      right; right; right; left
      intro hty
      have := mem_of_dictGet hty
      rcases List.mem_cons.mp this with h | h
      · cases h
      · exact hh.not (k := b!"Type") (by decide) (List.mem_map.mpr ⟨_, h, rfl⟩)
    · rw [List.mem_singleton] at hi
      subst hi
      cases e
  strings := by
    intro i hi
    rcases List.mem_append.mp hi with hi | hi
    · obtain ⟨data', e'⟩ := items_val pages 4 i hi
      rw [e']
      exact ⟨fun s e => (by cases e), fun s e => (by cases e)⟩
    · rw [List.mem_singleton] at hi
      subst hi
      exact ⟨fun s e => (by cases e), fun s e => (by cases e)⟩
  nums := by
    intro i hi
    rcases List.mem_append.mp hi with hi | hi
    · have : i.num ∈ (contentItems how encode 4 pages).map (·.num) := List.mem_map.mpr ⟨i, hi, rfl⟩
      rw [items_numbers] at this
      obtain ⟨n, hn, e⟩ := List.mem_map.mp this
      obtain ⟨j, _, h'⟩ := numbers_form pages _ _ hn
      omega
    · rw [List.mem_singleton] at hi
      subst hi
      show 6 + 2 * pages.length < _
      omega

theorem secret_packed_has (m : Method) (pages : List (List Bytes)) (d : List (Bytes × Obj)) (id : Obj) (hc : (secretPacked how encode pages d id).Ok) :
    HasText ((secretPacked how encode pages d id).openedContent m) how (fun x => opened m (encode x)) pages := by
  refine ⟨fun x hx => opened_member hc hx, fun i hi => ?_⟩
  obtain ⟨j, hj, e1, e2⟩ := items_opened m pages 4 i hi
  have := opened_item (m := m) hc (i := j) (List.mem_append_left _ (List.mem_append_left _ hj))
  rw [items_gen pages 4 j hj, e1] at this
  rw [this, e2]

/-- C148: texts written into an encrypted document with an object stream are shown to who has the password. For all pages, each with any lines of text,
any way of encoding which the filters undo, also with the padding of AES behind, every method and every user or owner password: the viewer gives
for each page, in order, its lines as texts. -/
theorem C148_texts (builtin : Builtin) (predefined : Bytes → Option CMap) (C : Crypto) (enc : Bytes → Bytes → Bytes) (hC : C.Good enc)
    (back : Env → Nat → Nat → M (Option Obj)) (clamps : Bool)
    (hbu : builtin b!"WinAnsiEncoding" = none) (hpre : predefined b!"WinAnsiEncoding" = none) (hh : HowOk how) (m : Method)
    (hundo : Undoes filtered how encode) (hundo' : Undoes filtered how (fun x => opened m (encode x)))
    (pages : List (List Bytes)) (hne : pages ≠ []) (hl : ∀ lines ∈ pages, ∀ l ∈ lines, ∀ b ∈ l, b.toNat ≠ 0xA4)
    (key : Bytes) (iv : Nat → Nat → Bytes) (hiv : ∀ n g, (iv n g).length = 16) (d : List (Bytes × Obj)) (id : Obj) (hs : SecretOk d id) (hm : MethodIs d m)
    (hcount : 2 * pages.length + 6 < 256 ^ 4) (hplain : (secretPacked how encode pages d id).write.length < 256 ^ 4)
    (file : Bytes) (hfile : file = ((secretPacked how encode pages d id).seal (ciphers C enc) key m iv).write)
    (hsmall : file.length < 256 ^ 4) (hb : clamps = true ∨ 1024 ≤ file.length)
    (hfil : dictGet d b!"Filter" = some (.name b!"Standard")) (password : Text) (pw : Bytes) (hp : utf8 password = .ok pw)
    (hun : Unlocks (ciphers C enc) (some id) d pw key) :
    ∃ F, ∀ fuel, F ≤ fuel → ∃ F', ∀ fuel', F' ≤ fuel' → ∃ doc w,
      viewFile filtered builtin predefined (secureWith C back fuel password) clamps fuel fuel' file = .ok doc ∧ openViewer doc = .ok w ∧
      (∃ is w', canvasAll doc (pages.length + 1) (false, w) = (is, none, w') ∧
        is.map (fun i => (w'.heap[i]?).map (·.strings)) = pages.map fun lines => some (lines.map (charsOf winAnsiChar))) ∧
      ∀ w, Clean doc w → ∀ (n : Nat) lines, pages[n]? = some lines → ∃ w', Viewer.navigate doc (n + 1) w = (.ok (), w') ∧
        ∃ u, w'.render = (.ok (), u) ∧ u.current.strings = lines.map (charsOf winAnsiChar) := by
  have hc := secret_packed_ok (encode := encode) hh pages hs hplain hcount
  have has := secret_packed_has m pages d id hc
  have hlen : ((pageNumbers 4 pages).map pageEntries).length = pages.length := by rw [List.length_map, pageNumbers_length]
  have main := (C148_shows (filtered := filtered) builtin predefined C enc hC back clamps key m iv hiv (secretPacked how encode pages d id) hc hundo hundo' d hm
    (secret_packed_sealable hh pages hcount) file hfile hsmall hb (6 + 2 * pages.length) 0 rfl (List.mem_append_right _ List.mem_cons_self) hfil password pw hp hun
    1 0 catalogDict (some b!"Catalog") rfl (has.objects (1, .dict catalogDict) (by simp [textObjects])) (.typed _ rfl (by decide)) 2 0 (treeEntries pages) _ rfl
    (has.objects (2, .dict (treeEntries pages)) (by simp [textObjects])) rfl (text_tree has)).2 _
    (text_pages has hundo' (hh.not (by decide)) hbu hpre pages 4 hl has.contents)
    (by intro e; rw [e] at hlen; exact hne (List.length_eq_zero_iff.mp hlen.symm))
  rw [hlen] at main
  obtain ⟨F, hF⟩ := main
  refine ⟨F, fun fuel hf => ?_⟩
  obtain ⟨F', hF'⟩ := hF fuel hf
  refine ⟨F', fun fuel' hf' => ?_⟩
  obtain ⟨doc, w, h1, h2, ⟨is, w', h3, h4⟩, h5⟩ := hF' fuel' hf'
  refine ⟨doc, w, h1, h2, ⟨is, w', h3, by rw [h4, List.map_map]; rfl⟩, fun w hw n lines hn => h5 w hw n _ ?_⟩
  rw [List.getElem?_map, hn]
  rfl

/-! ### Documents -/

theorem secret_method5 : MethodIs secretDict5 .aes256 :=
  ⟨5, rfl, Or.inr (Or.inr ⟨Or.inr rfl, b!"StdCF", _, _, _, rfl, by decide, rfl, rfl, rfl, Or.inr (Or.inr ⟨rfl, rfl⟩)⟩)⟩

/-- The letter, its dictionaries in an object stream, encrypted with AES-256, opened with the owner password. -/
example (x : Ext) (back : Env → Nat → Nat → M (Option Obj)) :
    ∃ F, ∀ fuel, F ≤ fuel → ∃ F', ∀ fuel', F' ≤ fuel' → ∃ doc w,
      viewFile (streamData x) (fun _ => none) (fun _ => none) (secureWith toyCrypto back fuel [111, 119, 110, 101, 114]) true fuel fuel'
        ((secretPacked [(b!"Filter", .name b!"ASCIIHexDecode")] toHex letterPages secretDict5 toyIdent).seal (ciphers toyCrypto toyEnc)
          (List.replicate 16 5 ++ List.replicate 16 6) .aes256 toyIv).write = .ok doc ∧
      openViewer doc = .ok w ∧
      ∃ is w', canvasAll doc 3 (false, w) = (is, none, w') ∧ is.map (fun i => (w'.heap[i]?).map (·.strings)) =
        [some [(b!"Dear (all),").map (·.toNat), [105, 116, 0x2019, 115, 32, 109, 101]], some [(b!"Yours").map (·.toNat), []]] := by
  obtain ⟨F, hF⟩ := C148_texts (filtered := streamData x) (fun _ => none) (fun _ => none) toyCrypto toyEnc toy_good back true rfl rfl how_hex .aes256
    (undoes_hex x) (undoes_hex_padded x) letterPages (by decide) letter_bytes _ toyIv (fun _ _ => List.length_replicate) secretDict5 toyIdent secret_dict5_ok
    secret_method5 (by decide) (by decide +kernel) _ rfl
    (by decide +kernel) (Or.inl rfl) rfl [111, 119, 110, 101, 114] b!"owner" rfl (.owner5 toyE5 (List.replicate 16 5) (List.replicate 16 6) secret_describes5 rfl rfl ⟨rfl, rfl⟩)
  refine ⟨F, fun fuel hf => ?_⟩
  obtain ⟨F', hF'⟩ := hF fuel hf
  refine ⟨F', fun fuel' hf' => ?_⟩
  obtain ⟨doc, w, h1, h2, ⟨is, w', h3, h4⟩, _⟩ := hF' fuel' hf'
  exact ⟨doc, w, h1, h2, is, w', h3, h4.trans letter_chars⟩

end PdfReader
