/-
  C99: an encryption dictionary which no section lists.
-/
import Verif.Lemmas.Hidden
import Verif.Props.SecretFile

namespace PdfReader

open Spec

variable {filtered : List (Bytes × Obj) → Bytes → Res Bytes}

theorem starts_offset {file : Bytes} {off : Nat} {clamps : Bool} (hs : StartsAt file off) (hb : clamps = true ∨ 1024 ≤ file.length) : xrefOffset clamps file = .ok off := by
  obtain ⟨body, s, ds, r, tail, rfl, h1, h2, h3, rfl, h5, h6, h7, h8⟩ := hs
  exact C26_last_startxref clamps body s ds r tail h1 h2 h3 h5 h6 h7 h8 hb

theorem hidden_found {X : Ciphers} {key : Bytes} {content : Spec.Content} {clamps : Bool} {file v : Bytes} {k off : Nat} {r : Revision} {rs : List Revision}
    {d : List (Bytes × Obj)} (hs : StartsAt file off) (hb : clamps = true ∨ 1024 ≤ file.length)
    (hc : Spec.Holds (fun d raw data => filtered d raw = .ok data) (Stored X key d) file k (r :: rs) content) {en eg : Nat} (hd : content en eg = some (.dict d))
    (hno : ∀ q ∈ r :: rs, ∀ off', q.inUse en ≠ some (off', eg))
    (hh : HiddenAt file off en eg d) (hfil : dictGet d b!"Filter" = some (.name b!"Standard")) :
    Found filtered (backLocate clamps) file v k r rs en eg d (rs.length + 2) := by
  intro fuel o hf ho hos hpl
  have hag := hos.agreeing hc
  unfold locateEncrypt
  cases hr : regGet o.st.reg (en, eg) with
  | some x =>
    have := (hag en eg x hr).2 _ hd
    subst this
    unfold St.note
    rw [hr]
    dsimp only [Option.getD_some]
    rw [if_pos (truthy_dict hfil)]
  | none =>
    have hxl : o.env.xrefs.length = rs.length + 1 := by have := (agree_all ho.sections).1; simpa using this
    have hnl : ∀ y ∈ o.env.xrefs, ¬ Lists y en eg := by
      intro y hy hl
      obtain ⟨r, hr, ha⟩ := agree_mem ho.sections y hy
      obtain ⟨off, hoff⟩ := (agree_lists ha).mp hl
      exact hno r hr off hoff
    obtain ⟨f, rfl⟩ : ∃ f, fuel = f + 1 + o.env.xrefs.length := ⟨fuel - (rs.length + 2), by omega⟩
    dsimp only [Option.getD_none]
    rw [if_neg (by decide), byXref_unlisted _ _ _ _ _ _ hnl, hr]
    dsimp only [Option.getD_none]
    rw [if_neg (by decide)]
    obtain ⟨m, hm⟩ : ∃ m, f + 1 + o.env.xrefs.length = m + 1 := ⟨f + o.env.xrefs.length, by omega⟩
    rw [hm, back_found (by rw [ho.file]; exact starts_offset hs hb) (by rw [ho.file]; exact hh) hpl]
    dsimp only [Option.getD_some]
    rw [if_pos (truthy_dict hfil)]

/-- C99: an encrypted file whose encryption dictionary is listed by no section opens with its user or its owner password all the same, if the
dictionary is written before the newest section and after another object, its header spelled with single spaces; and every object which the file
holds is delivered, streams decrypted, whichever objects were asked for before. -/
theorem C99_delivered (C : Crypto) (enc : Bytes → Bytes → Bytes) (hC : C.Good enc) (clamps : Bool) (file v : Bytes) (k off : Nat)
    (r : Revision) (rs : List Revision) (content : Spec.Content) (hh : HeaderAt file v k) (hs : StartsAt file off) (hb : clamps = true ∨ 1024 ≤ file.length)
    (hsec : SectionsFrom (fun d raw data => filtered d raw = .ok data) file off (r :: rs))
    (en eg : Nat) (d : List (Bytes × Obj)) (henc : dictGet r.dict b!"Encrypt" = some (.ref en eg)) (hd : content en eg = some (.dict d))
    (hno : ∀ q ∈ r :: rs, ∀ off', q.inUse en ≠ some (off', eg)) (hhid : HiddenAt file off en eg d) (hfil : dictGet d b!"Filter" = some (.name b!"Standard"))
    (password : Text) (pw key : Bytes) (hp : utf8 password = .ok pw) (hun : Unlocks (ciphers C enc) (dictGet r.dict b!"ID") d pw key)
    (hc : Spec.Holds (fun d raw data => filtered d raw = .ok data) (Stored (ciphers C enc) key d) file k (r :: rs) content)
    (a b : Nat) (catalog : List (Bytes × Obj)) (c : Option Bytes) (hroot : dictGet r.dict b!"Root" = some (.ref a b))
    (hcat : content a b = some (.dict catalog)) (hcls : DictKind catalog c) :
    ∃ F, ∀ fuel, F ≤ fuel → ∃ doc, openWith C (backLocate clamps fuel) filtered clamps fuel password file = .ok (doc, .dict c catalog) ∧ doc.version = v ∧
      TrailerIs doc.trailer r.dict ∧
      ∀ history : List (Nat × Nat), (∀ k ∈ history, content k.1 k.2 ≠ none) → ∀ n g x, content n g = some x →
        (locate doc.env fuel n g (asked doc.env fuel history doc.st)).1 = .ok x := by
  obtain ⟨F, hF⟩ := sealed_serves C enc hC (backLocate clamps) clamps file v k off r rs content hh hs hb hsec en eg d henc hd _ (hidden_found hs hb hc hd hno hhid hfil) hfil
    password pw key hp hun hc a b catalog c hroot hcat hcls
  refine ⟨F, fun fuel hf => ?_⟩
  obtain ⟨doc, e, hv, ht, I, hI, hdel⟩ := hF fuel hf
  exact ⟨doc, e, hv, ht, fun history hh n g x hx => (hdel fuel hf n g x _ (asked_keeps (hdel fuel hf) history _ hI hh) hx).1⟩

/-- C99: and its pages are listed and shown. -/
theorem C99_shows (builtin : Builtin) (predefined : Bytes → Option CMap) (C : Crypto) (enc : Bytes → Bytes → Bytes) (hC : C.Good enc) (clamps : Bool) (file v : Bytes) (k off : Nat)
    (r : Revision) (rs : List Revision) (content : Spec.Content) (hh : HeaderAt file v k) (hs : StartsAt file off) (hb : clamps = true ∨ 1024 ≤ file.length)
    (hsec : SectionsFrom (fun d raw data => filtered d raw = .ok data) file off (r :: rs))
    (en eg : Nat) (d : List (Bytes × Obj)) (henc : dictGet r.dict b!"Encrypt" = some (.ref en eg)) (hd : content en eg = some (.dict d))
    (hno : ∀ q ∈ r :: rs, ∀ off', q.inUse en ≠ some (off', eg)) (hhid : HiddenAt file off en eg d) (hfil : dictGet d b!"Filter" = some (.name b!"Standard"))
    (password : Text) (pw key : Bytes) (hp : utf8 password = .ok pw) (hun : Unlocks (ciphers C enc) (dictGet r.dict b!"ID") d pw key)
    (hc : Spec.Holds (fun d raw data => filtered d raw = .ok data) (Stored (ciphers C enc) key d) file k (r :: rs) content)
    (a b : Nat) (catalog : List (Bytes × Obj)) (c : Option Bytes) (hroot : dictGet r.dict b!"Root" = some (.ref a b))
    (hcat : content a b = some (.dict catalog)) (hcls : DictKind catalog c)
    (n g : Nat) (node : List (Bytes × Obj)) (ps : List (List (Bytes × Obj))) (hpages : dictGet catalog b!"Pages" = some (.ref n g))
    (hnode : content n g = some (.dict node)) (htype : dictGet node b!"Type" = some (.name b!"Pages")) (htree : PageTree content n g ps) :
    (∃ F, ∀ fuel, F ≤ fuel → ∃ doc, openWith C (backLocate clamps fuel) filtered clamps fuel password file = .ok (doc, .dict c catalog) ∧
      ∃ F', ∀ fuel', F' ≤ fuel' → ∃ s', docPages (locate doc.env fuel) fuel' (.dict c catalog) doc.st = (ps.map asPage, none, s')) ∧
    ∀ (tss : List (List Text)), PagesShow content filtered builtin predefined ps tss → ps ≠ [] →
    ∃ F, ∀ fuel, F ≤ fuel → ∃ F', ∀ fuel', F' ≤ fuel' → ∃ doc w,
      viewFile filtered builtin predefined (secureWith C (backLocate clamps fuel) fuel password) clamps fuel fuel' file = .ok doc ∧ openViewer doc = .ok w ∧
      (∃ is w', canvasAll doc (ps.length + 1) (false, w) = (is, none, w') ∧ is.map (fun i => (w'.heap[i]?).map (·.strings)) = tss.map some) ∧
      ∀ w, Clean doc w → ∀ (n : Nat) ts, tss[n]? = some ts → ∃ w', Viewer.navigate doc (n + 1) w = (.ok (), w') ∧
        ∃ u, w'.render = (.ok (), u) ∧ u.current.strings = ts := by
  have h := sealed_serves C enc hC (backLocate clamps) clamps file v k off r rs content hh hs hb hsec en eg d henc hd _ (hidden_found hs hb hc hd hno hhid hfil) hfil
    password pw key hp hun hc a b catalog c hroot hcat hcls
  exact ⟨serves_pages h n g node ps hpages hnode htype htree, fun tss hshow hne => serves_shows builtin predefined h n g node ps hpages hnode htype htree tss hshow hne⟩

/-! ### A document -/

def toyKey5 : Bytes := List.replicate 16 5 ++ List.replicate 16 6

def hiddenDraft : Draft :=
  { items := [⟨1, 0, .dict [(b!"Type", .name b!"Catalog")]⟩, ⟨5, 0, .stream [(b!"Length", .int 13)] b!"BT (a) Tj ET\n"⟩],
    trailer := [(b!"Size", .int 10), (b!"Root", .ref 1 0), (b!"Encrypt", .ref 9 0), (b!"ID", toyIdent)] }

theorem hidden_ok : hiddenDraft.Ok := by
  refine ⟨by decide, by simp [hiddenDraft, WritableValue, Writable, WritableEnts], ?_, by decide, by decide, (show [b!"Size", b!"Root", b!"Encrypt", b!"ID"].Nodup by decide),
      ⟨trivial, trivial, trivial, secret_dict5_ok.ident, trivial⟩, (show b!"Prev" ∉ [b!"Size", b!"Root", b!"Encrypt", b!"ID"] by decide)⟩
  intro i hi e data h v hv
  simp [hiddenDraft] at hi
  rcases hi with rfl | rfl
  · cases h
  · cases h
    simp at hv

/-- Two objects which are not listed: any, and the encryption dictionary. -/
def hiddenItems : List FileItem := [⟨7, 0, .dict [(b!"A", .int 1)]⟩, ⟨9, 0, .dict secretDict5⟩]

def hiddenSealed : Draft := hiddenDraft.seal (ciphers toyCrypto toyEnc) toyKey5 .aes256 toyIv

/-- They are written before the objects which are. -/
def hiddenFront : Bytes := fileHeader ++ showBody hiddenItems

def hiddenFile : Bytes := hiddenFront ++ hiddenSealed.show hiddenFront.length none

def hiddenContent : Spec.Content := fun n g =>
  if n = 7 ∧ g = 0 then some (.dict [(b!"A", .int 1)]) else if n = 9 ∧ g = 0 then some (.dict secretDict5) else (contentOf [hiddenDraft] n g).map (openedObj .aes256)

/-- What is written. -/
def hiddenWritten : Spec.Content := fun n g =>
  if n = 7 ∧ g = 0 then some (.dict [(b!"A", .int 1)]) else if n = 9 ∧ g = 0 then some (.dict secretDict5) else contentOf [hiddenSealed] n g

theorem hidden_sealed_ok : ∀ d ∈ [hiddenSealed], d.Ok := by
  intro d hd
  rw [List.mem_singleton] at hd
  subst hd
  exact seal_ok hidden_ok

theorem hidden_items_ok : ∀ i ∈ hiddenItems, WritableValue i.val := by
  intro i hi
  simp only [hiddenItems, List.mem_cons, List.not_mem_nil, or_false] at hi
  rcases hi with rfl | rfl
  · exact ⟨by decide, trivial, trivial⟩
  · exact ⟨secret_dict5_ok.keys, secret_dict5_ok.ents⟩

theorem hidden_no (n : Nat) (hn : n = 7 ∨ n = 9) : ∀ q ∈ [revOf hiddenSealed hiddenFront.length none], ∀ off', q.inUse n ≠ some (off', 0) := by
  intro q hq off' e
  rw [List.mem_singleton] at hq
  subst hq
  obtain ⟨i, hi, h1, _⟩ := inUse_from e
  obtain ⟨j, hj, rfl⟩ := List.mem_map.mp hi
  simp only [hiddenDraft, List.mem_cons, List.not_mem_nil, or_false] at hj
  rcases hj with rfl | rfl <;> rcases hn with rfl | rfl <;> exact absurd h1 (by decide)

theorem hidden_asIs {decoded : List (Bytes × Obj) → Bytes → Bytes → Prop} :
    Spec.Holds decoded AsIs hiddenFile 0 [revOf hiddenSealed hiddenFront.length none] hiddenWritten := by
  have hrest : ∀ n g o, hiddenWritten n g = some o → (n = 7 ∧ g = 0 ∧ o = .dict [(b!"A", .int 1)]) ∨ (n = 9 ∧ g = 0 ∧ o = .dict secretDict5) ∨ contentOf [hiddenSealed] n g = some o := by
    intro n g o h
    unfold hiddenWritten at h
    split at h
    · rename_i e; cases h; exact Or.inl ⟨e.1, e.2, rfl⟩
    · split at h
      · rename_i e; cases h; exact Or.inr (Or.inl ⟨e.1, e.2, rfl⟩)
      · exact Or.inr (Or.inr h)
  have hat : ∀ n g o, contentOf [hiddenSealed] n g = some o → ∃ off rest d i, CurrentAt [revOf hiddenSealed hiddenFront.length none] n g off ∧ hiddenFile.drop off = showItem i ++ rest ∧
      d ∈ [hiddenSealed] ∧ i ∈ d.items ∧ i.num = n ∧ i.gen = g ∧ i.val = o :=
    fun n g o h => content_at [hiddenSealed] hiddenFront.length none hiddenFront [] n g o hidden_sealed_ok (by unfold hiddenFile; rw [showDrafts, showDrafts]; simp) rfl h
  have hnp : ∀ n g o, hiddenWritten n g = some o → NoPack o := by
    intro n g o h
    rcases hrest n g o h with ⟨_, _, rfl⟩ | ⟨_, _, rfl⟩ | h
    · intro d raw v e; cases e
    · intro d raw v e; cases e
    · obtain ⟨off, rest, d, i, _, _, h3, h4, _, _, hv⟩ := hat n g o h
      exact hv ▸ item_noPack (hidden_sealed_ok d h3) h4
  have hcontent : ∀ i ∈ hiddenItems, hiddenWritten i.num i.gen = some i.val := by
    intro i hi
    simp only [hiddenItems, List.mem_cons, List.not_mem_nil, or_false] at hi
    rcases hi with rfl | rfl <;> rfl
  have hnopack : ∀ i ∈ hiddenItems, NoPack i.val := fun i hi => hnp _ _ _ (hcontent i hi)
  refine ⟨⟨[[((7, 0), .dict [(b!"A", .int 1)])], [((9, 0), .dict secretDict5)]], _, 10 :: hiddenSealed.show hiddenFront.length none, ?_,
    .obj 7 0 _ _ _ _ fileHeader _ _ ?_ (Or.inl (item_text _ (hidden_items_ok _ List.mem_cons_self))) rfl rfl (.plain _ (hnopack _ List.mem_cons_self))
      (.obj 9 0 _ _ _ _ [10] _ _ sep_lf (Or.inl (item_text _ (hidden_items_ok _ (List.mem_cons_of_mem _ List.mem_cons_self)))) rfl rfl (.plain _ (hnopack _ (List.mem_cons_of_mem _ List.mem_cons_self))) .nil),
    fun n g o h => ?_⟩, ⟨[(7, 0), (9, 0), (1, 0), (5, 0)], fun n g h => ?_⟩, ?_, ?_⟩
  · show hiddenFile = _
    unfold hiddenFile hiddenFront hiddenItems showBody showBody showBody
    simp
  · exact .comment b!"PDF-1.7" 10 [] (by simp [Eol]) (Or.inl rfl) .nil
  · rcases hrest n g o h with ⟨rfl, rfl, rfl⟩ | ⟨rfl, rfl, rfl⟩ | h
    · exact Or.inr ⟨hidden_no 7 (Or.inl rfl), _, List.mem_cons_self, List.mem_cons_self⟩
    · exact Or.inr ⟨hidden_no 9 (Or.inr rfl), _, List.mem_cons_of_mem _ List.mem_cons_self, List.mem_cons_self⟩
    · obtain ⟨off, rest, d, i, h1, h2, h3, h4, rfl, rfl, rfl⟩ := hat n g o h
      exact Or.inl ⟨off, showItem i, rest, _, _, h1, h2, Or.inl (item_text i ((hidden_sealed_ok d h3).vals i h4)), rfl, .plain _ (item_noPack (hidden_sealed_ok d h3) h4)⟩
  · cases hc : hiddenWritten n g with
    | none => exact absurd hc h
    | some o =>
      rcases hrest n g o hc with ⟨rfl, rfl, rfl⟩ | ⟨rfl, rfl, rfl⟩ | h
      · simp
      · simp
      · obtain ⟨off, rest, d, i, h1, h2, h3, h4, rfl, rfl, rfl⟩ := hat n g o h
        rw [List.mem_singleton] at h3
        subst h3
        obtain ⟨j, hj, rfl⟩ := List.mem_map.mp h4
        simp only [hiddenDraft, List.mem_cons, List.not_mem_nil, or_false] at hj
        rcases hj with rfl | rfl <;> simp
  · intro n g o defs h hd d hm
    rw [defines_plain (hnp n g o h) hd, List.mem_singleton] at hm
    subst hm
    exact h
  · intro r hr n g v o ho
    rw [List.mem_singleton] at hr
    subst hr
    cases ho

theorem hidden_holds {decoded : List (Bytes × Obj) → Bytes → Bytes → Prop} :
    Spec.Holds decoded (Stored (ciphers toyCrypto toyEnc) toyKey5 secretDict5) hiddenFile 0 [revOf hiddenSealed hiddenFront.length none] hiddenContent := by
  have hseal : ∀ n g, contentOf [hiddenSealed] n g = (contentOf [hiddenDraft] n g).map (sealObj (ciphers toyCrypto toyEnc) toyKey5 .aes256 (toyIv n g) n g) :=
    content_seal (X := ciphers toyCrypto toyEnc) (key := toyKey5) (m := .aes256) (iv := toyIv) [hiddenDraft]
  refine holds_stored hidden_asIs (fun n g => ?_) (fun n g o w ho hw => ?_) (fun n g i hi => ?_) (fun r hr => by rw [List.mem_singleton] at hr; subst hr; rfl)
  · unfold hiddenContent hiddenWritten
    rw [hseal]
    split
    · simp
    · split
      · simp
      · cases contentOf [hiddenDraft] n g <;> simp
  · unfold hiddenContent at ho
    unfold hiddenWritten at hw
    split at ho
    · rename_i e
      rw [if_pos e] at hw
      cases ho
      cases hw
      exact ⟨.other _ (fun _ _ h => by cases h) (fun _ h => by cases h) (fun _ h => by cases h), fun d raw v e => (by cases e), fun d raw v e => (by cases e)⟩
    · rename_i e
      rw [if_neg e] at hw
      split at ho
      · rename_i e
        rw [if_pos e] at hw
        cases ho
        cases hw
        exact ⟨.other _ (fun _ _ h => by cases h) (fun _ h => by cases h) (fun _ h => by cases h), fun d raw v e => (by cases e), fun d raw v e => (by cases e)⟩
      · rename_i e
        rw [if_neg e, hseal] at hw
        cases hcd : contentOf [hiddenDraft] n g with
        | none => rw [hcd] at ho; cases ho
        | some x =>
        rw [hcd] at ho hw
        cases ho
        cases hw
        obtain ⟨dr, hdr, i, hi, rfl, rfl, rfl⟩ := content_mem hcd
        rw [List.mem_singleton] at hdr
        subst hdr
        have hnp : NoPack i.val := item_noPack hidden_ok hi
        refine ⟨?_, opened_noPack hnp, seal_noPack hnp⟩
        have := seal_stored (X := ciphers toyCrypto toyEnc) (key := toyKey5) (m := .aes256) (iv := toyIv i.num i.gen) (n := i.num) (g := i.gen) (d := secretDict5) (o := i.val)
          List.length_replicate ⟨5, rfl, Or.inr (Or.inr ⟨Or.inr rfl, b!"StdCF", _, _, _, rfl, by decide, rfl, rfl, rfl, Or.inr (Or.inr ⟨rfl, rfl⟩)⟩)⟩ ?_ ?_ ?_ ?_
        · exact this
        all_goals
          simp only [hiddenDraft, List.mem_cons, List.not_mem_nil, or_false] at hi
          rcases hi with rfl | rfl <;> first | decide | exact ⟨fun s e => (by cases e), fun s e => (by cases e)⟩ |
            (intro es data e; cases e; done) | (intro es data e; cases e; exact Or.inr (Or.inr (Or.inr (Or.inl (by decide)))))
  · unfold hiddenWritten at hi
    unfold hiddenContent
    split at hi
    · cases hi
    · rename_i e
      rw [if_neg e]
      split at hi
      · cases hi
      · rename_i e
        rw [if_neg e]
        rw [hseal] at hi
        cases hc : contentOf [hiddenDraft] n g with
        | none => rw [hc] at hi; cases hi
        | some x =>
          rw [hc] at hi
          cases x <;> first | (cases hi; done) | (cases hi; rfl)

/-- A check of `EndsOnce`. -/
theorem ends_once {x : Bytes} (h : x.drop (x.length - 6) = b!"endobj" ∧ (List.range x.length).all (fun k => !startsWith b!"endobj" (x.drop k) || k + 6 == x.length) = true) :
    EndsOnce x := by
  refine ⟨⟨x.take (x.length - 6), by rw [← h.1, List.take_append_drop]⟩, fun k hk => ?_⟩
  obtain ⟨h1, h2⟩ := occurs_decide hk (by decide)
  have := List.all_eq_true.mp h.2 k (List.mem_range.mpr h1)
  rw [h2] at this
  simpa using this

theorem not_occurs {x : Bytes} (h : (List.range x.length).all (fun k => !startsWith b!"endobj" (x.drop k)) = true) : ∀ k, ¬ OccursAt b!"endobj" x k := by
  intro k hk
  obtain ⟨h1, h2⟩ := occurs_decide hk (by decide)
  have := List.all_eq_true.mp h k (List.mem_range.mpr h1)
  rw [h2] at this
  cases this

def hiddenOff : Nat := hiddenFront.length + (showBody hiddenSealed.items).length

theorem hidden_sect : hiddenFile.drop hiddenOff = b!"xref\n1 1\n0000000" ++ hiddenFile.drop (hiddenOff + 16) := by decide +kernel

theorem hidden_take : (hiddenFile.drop hiddenOff).take (plainHeader 9 0).length = b!"xref\n1 " := by
  rw [hidden_sect]
  rfl

theorem hidden_text : hiddenFile = (fileHeader ++ b!"7 0 obj\n<</A 1>>\n") ++ (b!"endobj" ++ ([10] ++ (showItem ⟨9, 0, .dict secretDict5⟩ ++
    ((hiddenSealed.items.map fun i => [10] ++ showItem i).flatten ++ ([10] ++ hiddenFile.drop hiddenOff))))) := by decide +kernel

theorem item_long (i : FileItem) : (plainHeader 9 0).length < (showItem i).length := by
  show 7 < _
  unfold showItem
  simp
  omega

theorem hidden_piece1 : Piece (plainHeader 9 0) ([10] ++ showItem ⟨1, 0, .dict [(b!"Type", .name b!"Catalog")]⟩) :=
  ⟨[10], _, rfl, sep_lf, digits_notSep (showNat_digits _), ends_once (by decide +kernel), item_long _, fun ⟨_, e⟩ => absurd (List.cons.inj e).1 (show ¬ (57 : Byte) = 49 by decide)⟩

def hiddenStream : FileItem := ⟨5, 0, sealObj (ciphers toyCrypto toyEnc) toyKey5 .aes256 (toyIv 5 0) 5 0 (.stream [(b!"Length", .int 13)] b!"BT (a) Tj ET\n")⟩

theorem hidden_once2 : EndsOnce ([10] ++ showItem hiddenStream) := ends_once (by decide +kernel)

theorem hidden_piece2 : Piece (plainHeader 9 0) ([10] ++ showItem hiddenStream) :=
  ⟨[10], _, rfl, sep_lf, digits_notSep (showNat_digits _), hidden_once2, item_long _, fun ⟨_, e⟩ => absurd (List.cons.inj e).1 (show ¬ (57 : Byte) = 53 by decide)⟩

theorem hidden_once : EndsOnce ([10] ++ showItem ⟨9, 0, .dict secretDict5⟩) := ends_once (by decide +kernel)

theorem hidden_begins : plainHeader 9 0 <+: showItem ⟨9, 0, .dict secretDict5⟩ := by
  refine ⟨[10] ++ (showValue (.dict secretDict5) ++ ([10] ++ b!"endobj")), ?_⟩
  unfold showItem plainHeader
  simp

theorem hidden_at : HiddenAt hiddenFile hiddenOff 9 0 secretDict5 := by
  refine ⟨_, [10], showItem ⟨9, 0, .dict secretDict5⟩, (hiddenSealed.items.map fun i => [10] ++ showItem i), [10], hiddenFile.drop hiddenOff, hidden_text, rfl, sep_lf,
    item_text _ (hidden_items_ok _ (List.mem_cons_of_mem _ List.mem_cons_self)), hidden_begins, hidden_once, ?_, ?_, ?_, ?_⟩
  · intro x hx
    obtain ⟨i, hi, rfl⟩ := List.mem_map.mp hx
    obtain ⟨j, hj, rfl⟩ := List.mem_map.mp hi
    simp only [hiddenDraft, List.mem_cons, List.not_mem_nil, or_false] at hj
    rcases hj with rfl | rfl
    · exact hidden_piece1
    · exact hidden_piece2
  · rw [hidden_take]
    exact not_occurs (show (List.range ([10] ++ b!"xref\n1 ").length).all (fun k => !startsWith b!"endobj" (([10] ++ b!"xref\n1 ").drop k)) = true by decide)
  · have e := congrArg List.length hidden_take
    rw [List.length_take] at e
    have : 7 = (plainHeader 9 0).length := rfl
    have : (b!"xref\n1 ").length = 7 := rfl
    omega
  · intro h
    have e := prefix_take h
    rw [hidden_take] at e
    exact absurd (List.cons.inj e).1 (show ¬ (120 : Byte) = 57 by decide)

theorem hidden_starts : StartsAt hiddenFile hiddenOff := by
  refine starts_of (body := hiddenFront ++ (showBody hiddenSealed.items ++ (b!"xref" ++ ([10] ++ (showTable hiddenFront.length hiddenSealed.items ++ ([] ++ (b!"trailer" ++ ([10] ++ (60 :: 60 ::
    (showEnts (hiddenSealed.dict none) ++ 62 :: 62 :: [10])))))))))) ?_ (by simp [hiddenFront, fileHeader])
  unfold hiddenFile Draft.show hiddenOff
  simp

theorem hidden_header : HeaderAt hiddenFile b!"1.7" 0 := by
  refine ⟨[], b!"%PDF-1.7", [10] ++ (showBody hiddenItems ++ hiddenSealed.show hiddenFront.length none), ?_, rfl, ?_, Or.inl rfl, fun a h' b v' _ _ => Nat.zero_le _, by simp, ?_⟩
  · unfold hiddenFile hiddenFront fileHeader
    simp
  · exact .pdf b!"1.7" ⟨49, 55, by simp [Digit], by simp [Digit], rfl⟩
  · unfold hiddenFile hiddenFront Draft.show
    simp [fileHeader]
    omega

theorem hidden_length : hiddenFile.length < 10 ^ 10 := by decide +kernel

theorem hidden_sections (decoded : List (Bytes × Obj) → Bytes → Bytes → Prop) : SectionsFrom decoded hiddenFile hiddenOff [revOf hiddenSealed hiddenFront.length none] := by
  have h := table_at (d := hiddenSealed) (file := hiddenFile) (P := hiddenFront) (Q := []) (start := hiddenFront.length) (prev := none) (hidden_sealed_ok _ (by simp))
    (by rw [List.append_nil]; unfold hiddenFile; rfl) rfl hidden_length
  exact Or.inl (.oldest _ _ h (dict_noPrev (hidden_sealed_ok _ (by simp))))

/-- The hypotheses of C99_delivered are met: the stream is read, decrypted. -/
example (x : Ext) : ∃ F, ∀ fuel, F ≤ fuel → ∃ doc,
    openWith toyCrypto (backLocate true fuel) (streamData x) true fuel [111, 119, 110, 101, 114] hiddenFile = .ok (doc, .dict (some b!"Catalog") [(b!"Type", .name b!"Catalog")]) ∧
    (locate doc.env fuel 5 0 (asked doc.env fuel [(7, 0), (9, 0)] doc.st)).1 = .ok (.stream [(b!"Length", .int 16)] (b!"BT (a) Tj ET\n" ++ [3, 3, 3])) := by
  obtain ⟨F, hF⟩ := C99_delivered (filtered := streamData x) toyCrypto toyEnc toy_good true hiddenFile b!"1.7" 0 hiddenOff _ [] hiddenContent hidden_header hidden_starts
    (Or.inl rfl) (hidden_sections _) 9 0 secretDict5 rfl rfl (hidden_no 9 (Or.inr rfl)) hidden_at rfl [111, 119, 110, 101, 114] b!"owner" toyKey5 rfl
    (.owner5 toyE5 (List.replicate 16 5) (List.replicate 16 6) secret_describes5 rfl rfl ⟨rfl, rfl⟩)
    hidden_holds 1 0 _ (some b!"Catalog") rfl rfl (.typed _ rfl (by decide))
  refine ⟨F, fun fuel hf => ?_⟩
  obtain ⟨doc, h1, _, _, h2⟩ := hF fuel hf
  refine ⟨doc, h1, h2 [(7, 0), (9, 0)] ?_ 5 0 _ rfl⟩
  intro k hk
  simp only [List.mem_cons, List.not_mem_nil, or_false] at hk
  rcases hk with rfl | rfl <;> exact fun e => (by cases e)

end PdfReader
