/-
  C129, C130: metadata of a file, permissions of an encrypted document.
-/
import Verif.Model.DocInfo
import Verif.Props.Metadata
import Verif.Props.Walk
import Verif.Props.Encrypted

namespace PdfReader

open Spec

/-! ### C129: metadata -/

variable {filtered : List (Bytes × Obj) → Bytes → Res Bytes}

/-- The metadata of a document which serves its content. -/
theorem serves_metadata {secure : Nat → Opened → Obj → Res Opened} {clamps : Bool} {file v : Bytes} {dict : List (Bytes × Obj)} {c : Option Bytes}
    {catalog : List (Bytes × Obj)} {content : Spec.Content} (h : Serves filtered secure clamps file v dict c catalog content) (L : DateLib) :
    ∃ F, ∀ fuel, F ≤ fuel → ∃ doc, openDocument filtered (secure fuel) clamps fuel file = .ok (doc, .dict c catalog) ∧
      (NoEntry dict b!"Info" → ∀ s, docMetadata L (locate doc.env fuel) doc.trailer s = (.ok none, s)) ∧
      ∀ n g es, dictGet dict b!"Info" = some (.ref n g) → content n g = some (.dict es) → ∀ history : List (Nat × Nat), (∀ k ∈ history, content k.1 k.2 ≠ none) →
        (docMetadata L (locate doc.env fuel) doc.trailer (asked doc.env fuel history doc.st)).1 = metadata L (.ref n g) fun _ _ => .ok (some (es.map fun e => (e.1, .raw e.2))) := by
  obtain ⟨F, hF⟩ := h
  refine ⟨F, fun fuel hf => ?_⟩
  obtain ⟨doc, e, _, ht, I, hI, hd⟩ := hF fuel hf
  refine ⟨doc, e, fun hn s => ?_, fun n g es hi hc history hh => ?_⟩
  · have : infoEntry doc.trailer = .missing := by
      obtain ⟨t1, t2⟩ := ht b!"Info" (by decide)
      unfold infoEntry
      rcases hn with hn | hn
      · rcases t2 hn with h | h <;> rw [h] <;> rfl
      · rw [t1 _ hn]; rfl
    unfold docMetadata
    rw [this]
  · have : infoEntry doc.trailer = .ref n g := by
      unfold infoEntry
      rw [(ht b!"Info" (by decide)).1 _ hi]
      rfl
    unfold docMetadata
    rw [this]
    dsimp only
    rw [(hd fuel hf n g _ _ (asked_keeps (hd fuel hf) history _ hI hh) hc).1]
    rfl

/-- The metadata of a file which was opened are the texts and dates of the dictionary its trailer refers to as Info, whatever objects were resolved before; without Info there are
none. Missing (C87): texts beyond ASCII, hexadecimal strings, values given by reference. -/
theorem C129_file_partial (L : DateLib) (hL : DateLib.Good L) (secure : Opened → Obj → Res Opened) (clamps : Bool) (file v : Bytes) (k off : Nat) (r : Revision) (rs : List Revision)
    (content : Spec.Content) (hh : HeaderAt file v k) (hs : StartsAt file off) (hb : clamps = true ∨ 1024 ≤ file.length)
    (hsec : SectionsFrom (fun d raw data => filtered d raw = .ok data) file off (r :: rs))
    (hc : Spec.Holds (fun d raw data => filtered d raw = .ok data) AsIs file k (r :: rs) content) (henc : NoEntry r.dict b!"Encrypt")
    (a b : Nat) (catalog : List (Bytes × Obj)) (c : Option Bytes) (hroot : dictGet r.dict b!"Root" = some (.ref a b))
    (hcat : content a b = some (.dict catalog)) (hcls : DictKind catalog c) :
    ∃ F, ∀ fuel, F ≤ fuel → ∃ doc, openDocument filtered secure clamps fuel file = .ok (doc, .dict c catalog) ∧
      (NoEntry r.dict b!"Info" → ∀ s, (docMetadata L (locate doc.env fuel) doc.trailer s).1 = .ok none) ∧
      ∀ n g (es : List (Bytes × Obj × MetaVal)), dictGet r.dict b!"Info" = some (.ref n g) → content n g = some (.dict (es.map fun e => (e.1, e.2.1))) →
        (∀ e ∈ es, Expected e.1 e.2.1 e.2.2 ∧ ∀ s, e.2.1 = .str s → Simple e.2.2 s) →
        ∀ history : List (Nat × Nat), (∀ k ∈ history, content k.1 k.2 ≠ none) →
          (docMetadata L (locate doc.env fuel) doc.trailer (asked doc.env fuel history doc.st)).1 = .ok (some (es.map fun e => (e.1, e.2.2))) := by
  obtain ⟨F, hF⟩ := serves_metadata (openDocument_opens secure clamps file v k off r rs content hh hs hb hsec hc henc a b catalog c hroot hcat hcls) L
  refine ⟨F, fun fuel hf => ?_⟩
  obtain ⟨doc, e, h1, h2⟩ := hF fuel hf
  refine ⟨doc, e, fun hn s => by rw [h1 hn s], fun n g es hi hcon hex history hh => ?_⟩
  rw [h2 n g _ hi hcon history hh]
  exact C87_entries_partial L hL n g _ es hex (by rw [List.map_map]; rfl)

/-- Info in the trailer itself: reading the metadata fails. -/
theorem C129_direct_counterexample {σ : Type} (L : DateLib) (loc : Locator σ) (trailer : List (Bytes × Obj)) (e : Bytes × Obj) (es : List (Bytes × Obj))
    (h : dictGet trailer b!"Info" = some (.dict (e :: es))) (s : σ) : docMetadata L loc trailer s = (.error .attributeError, s) := by
  have : infoEntry trailer = .direct := by
    unfold infoEntry
    rw [h]
    rfl
  unfold docMetadata
  rw [this]

/-- An Info which is no dictionary, for example since there is no such object: reading the metadata fails. -/
theorem C129_null_counterexample {σ : Type} (L : DateLib) (loc : Locator σ) (trailer : List (Bytes × Obj)) (n g : Nat) (h : dictGet trailer b!"Info" = some (.ref n g)) (o : Obj)
    (ho : ∀ es, o ≠ .dict es) (s : σ) (hl : (loc n g s).1 = .ok o) : (docMetadata L loc trailer s).1 = .error .attributeError := by
  have : infoEntry trailer = .ref n g := by
    unfold infoEntry
    rw [h]
    rfl
  unfold docMetadata
  rw [this]
  dsimp only
  rw [hl]
  cases o with
  | dict es => exact absurd rfl (ho es)
  | _ => rfl

/-- Encrypted documents: the strings of dictionaries are not decrypted, so that the metadata are made of what is stored. -/
theorem C129_encrypted_counterexample (C : Crypto) (h : Handler) (n g : Nat) (es : List (Bytes × Obj)) : decryptIfNecessary C (some h) n g (.dict es) = .ok (.dict es) := rfl

/-- A file with metadata. -/
def infoDraft : Draft :=
  { items := [⟨1, 0, .dict [(b!"Type", .name b!"Catalog"), (b!"Pages", .ref 2 0)]⟩, ⟨2, 0, .dict [(b!"Type", .name b!"Pages"), (b!"Kids", .arr []), (b!"Count", .int 0)]⟩,
      ⟨3, 0, .dict [(b!"Title", .str b!"A b"), (b!"ModDate", .str b!"D:20210212014204Z00'00'"), (b!"Trapped", .name b!"True")]⟩],
    trailer := [(b!"Size", .int 4), (b!"Root", .ref 1 0), (b!"Info", .ref 3 0)] }

theorem info_ok : infoDraft.Ok := by
  refine ⟨by decide, by simp [infoDraft, WritableValue, Writable, WritableEnts, WritableItems], ?_, by decide, by decide, by decide,
    by simp [infoDraft, Writable, WritableEnts], by decide⟩
  intro i hi e data h v hv
  simp [infoDraft] at hi
  rcases hi with rfl | rfl | rfl <;> simp at h

theorem info_serves (filtered : List (Bytes × Obj) → Bytes → Res Bytes) (secure : Opened → Obj → Res Opened) :
    Serves filtered (fun _ => secure) true (writeFile [infoDraft]) b!"1.7" (infoDraft.dict none) (some b!"Catalog")
      [(b!"Type", .name b!"Catalog"), (b!"Pages", .ref 2 0)] (contentOf [infoDraft]) := by
  have hok : ∀ d ∈ [] ++ [infoDraft], d.Ok := by intro d hd; rw [List.nil_append, List.mem_singleton] at hd; subst hd; exact info_ok
  have hd : [] ++ [infoDraft] ≠ [] := by simp
  have hsec := sections_of _ hd hok (by decide +kernel) (fun d raw data => filtered d raw = .ok data)
  have hc := holds_of (decoded := fun d raw data => filtered d raw = .ok data) _ hok
  exact openDocument_opens secure true (writeFile ([] ++ [infoDraft])) _ 0 _ _ _ _ (header_at _ hd) (starts_at _ hd) (Or.inl rfl) hsec hc
    (Or.inl rfl) 1 0 _ _ rfl rfl (.typed _ rfl (by decide))

/-- Its metadata, after the pages were resolved. -/
example (secure : Opened → Obj → Res Opened) : ∃ F, ∀ fuel, F ≤ fuel → ∃ doc root, openDocument plain secure true fuel (writeFile [infoDraft]) = .ok (doc, root) ∧
    (docMetadata sampleLib (locate doc.env fuel) doc.trailer (asked doc.env fuel [(2, 0)] doc.st)).1 =
      .ok (some [(b!"Title", .text [65, 32, 98]), (b!"ModDate", .date ⟨2021, 2, 12, 1, 42, 4, 0⟩), (b!"Trapped", .raw (.name b!"True"))]) := by
  obtain ⟨F, hF⟩ := serves_metadata (info_serves plain secure) sampleLib
  refine ⟨F, fun fuel hf => ?_⟩
  obtain ⟨doc, e, _, h⟩ := hF fuel hf
  refine ⟨doc, _, e, ?_⟩
  rw [h 3 0 _ rfl rfl [(2, 0)] (by decide +kernel)]
  rfl

/-! ### C130: permissions -/

/-- The bit with this position, counted from 1, of a number of 32 bits in two's complement (Table 22). -/
def permission (p : Int) (position : Nat) : Bool := (BitVec.ofInt 32 p).getLsbD (position - 1)

theorem bit_of (p : Int) (k : Nat) (hk : k = 2 ∨ k = 3 ∨ k = 4) : pyBit p k = (BitVec.ofInt 32 p).getLsbD k := by
  unfold pyBit BitVec.getLsbD
  rw [BitVec.toNat_ofInt, Nat.testBit_eq_decide_div_mod_eq]
  rw [Bool.eq_iff_iff]
  simp only [beq_iff_eq, decide_eq_true_eq]
  rcases hk with rfl | rfl | rfl <;> simp only [Nat.reducePow, Int.reducePow] <;> omega

theorem handler_p (C : Crypto) (id : Option Obj) (d : List (Bytes × Obj)) (password : Text) (h : Handler) (ho : mkHandler C id d password = .ok h) : dictGet d b!"P" = some h.q.p := by
  have hbase : ∀ k q, baseParams k id d = .ok q → dictGet d b!"P" = some q.p := by
    intro k q hq
    unfold baseParams at hq
    repeat' split at hq
    all_goals first | (injection hq with hq; subst hq; assumption) | cases hq
  have h4 : ∀ k q, v4Params k id d = .ok q → dictGet d b!"P" = some q.p := by
    intro k q hq
    unfold v4Params at hq
    repeat' split at hq
    all_goals first | (injection hq with hq; subst hq; have hb := hbase _ _ ‹baseParams _ id d = Except.ok _›; exact hb) | cases hq
  have h5 : ∀ q, v5Params id d = .ok q → dictGet d b!"P" = some q.p := by
    intro q hq
    unfold v5Params at hq
    repeat' split at hq
    all_goals first | (injection hq with hq; subst hq; have hb := h4 _ _ ‹v4Params _ id d = Except.ok _›; exact hb) | cases hq
  have hall : ∀ q, paramsOf id d = .ok q → dictGet d b!"P" = some q.p := by
    intro q hq
    unfold paramsOf at hq
    repeat' split at hq
    all_goals first | exact hbase _ _ hq | exact h4 _ _ hq | exact h5 _ hq | cases hq
  have hinit : ∀ pw q, initHandler C pw q = .ok h → h.q = q := by
    intro pw q hi
    unfold initHandler at hi
    repeat' split at hi
    all_goals first | (injection hi with hi; subst hi; rfl) | cases hi
  unfold mkHandler at ho
  repeat' split at ho
  all_goals first | (rename_i _ _ _ _ hq; rw [hinit _ _ ho]; exact hall _ hq) | cases ho

/-- The permissions which an encrypted document reports are those of P: bit 3 for printing, bit 4 for modifying, bit 5 for extracting, whether P is a signed or an unsigned number. -/
theorem C130_flags_partial (C : Crypto) (id : Option Obj) (d : List (Bytes × Obj)) (password : Text) (h : Handler) (ho : mkHandler C id d password = .ok h) (p : Int)
    (hp : dictGet d b!"P" = some (.int p)) :
    h.isPrintable = .ok (permission p 3) ∧ h.isModifiable = .ok (permission p 4) ∧ h.isExtractable = .ok (permission p 5) := by
  have e := handler_p C id d password h ho
  rw [hp] at e
  injection e with e
  unfold Handler.isPrintable Handler.isModifiable Handler.isExtractable Handler.flag permission
  rw [← e]
  dsimp only
  rw [bit_of p 2 (by omega), bit_of p 3 (by omega), bit_of p 4 (by omega)]
  exact ⟨rfl, rfl, rfl⟩

/-- The same permissions, written as a signed or an unsigned number. -/
theorem permission_unsigned (p : Int) (k : Nat) : permission (p + 4294967296) k = permission p k := by
  unfold permission
  congr 1
  apply BitVec.eq_of_toNat_eq
  rw [BitVec.toNat_ofInt, BitVec.toNat_ofInt]
  congr 1
  omega

/-- But documents of the versions 1 to 4 with an unsigned P of 2^31 and more are not opened, whatever the password. -/
theorem C130_unsigned_counterexample (C : Crypto) (id : Option Obj) (d : List (Bytes × Obj)) (password : Text) (p : Int) (hp : dictGet d b!"P" = some (.int p)) (hbig : 2147483648 ≤ p)
    (v : Int) (hV : dictGet d b!"V" = some (.int v)) (hv : v ≠ 5) : ∀ h, mkHandler C id d password ≠ .ok h := by
  intro h ho
  have e := handler_p C id d password h ho
  rw [hp] at e
  injection e with e
  have hkind : h.q.kind ≠ .v5 ∧ ∃ pw, authenticate C h.q pw = .ok (some h.key) := by
    have hbase : ∀ k q, baseParams k id d = .ok q → q.kind = k := by
      intro k q hq
      unfold baseParams at hq
      repeat' split at hq
      all_goals first | (injection hq with hq; subst hq; rfl) | cases hq
    have h4 : ∀ k q, v4Params k id d = .ok q → q.kind = k := by
      intro k q hq
      unfold v4Params at hq
      repeat' split at hq
      all_goals first | (injection hq with hq; subst hq; have hb := hbase _ _ ‹baseParams _ id d = Except.ok _›; exact hb) | cases hq
    have hall : ∀ q, paramsOf id d = .ok q → q.kind ≠ .v5 := by
      intro q hq
      unfold paramsOf at hq
      rw [hV] at hq
      dsimp only [Option.getD_some] at hq
      split at hq
      · rw [hbase _ _ hq]; decide
      · split at hq
        · rw [h4 _ _ hq]; decide
        · cases hq
    have hinit : ∀ pw q, initHandler C pw q = .ok h → h.q = q ∧ authenticate C q pw = .ok (some h.key) := by
      intro pw q hi
      unfold initHandler at hi
      repeat' split at hi
      all_goals first | (injection hi with hi; subst hi; exact ⟨rfl, by assumption⟩) | cases hi
    unfold mkHandler at ho
    repeat' split at ho
    all_goals first | (obtain ⟨e1, e2⟩ := hinit _ _ ho; rw [e1]; exact ⟨hall _ ‹paramsOf id d = Except.ok _›, _, e2⟩) | cases ho
  obtain ⟨hk, pw, ha⟩ := hkind
  have hkey : ∀ pw, computeKey C h.q pw = .error .valueError := by
    intro pw
    unfold computeKey packP
    rw [← e]
    dsimp only
    rw [if_neg (by omega)]
  unfold authenticate at ha
  rw [if_neg hk] at ha
  unfold authUser at ha
  rw [hkey] at ha
  cases ha

example : permission (-3904) 3 = false ∧ permission (-1852) 3 = true ∧ permission (4294967296 - 1852) 3 = true := by decide

/-! ### Passwords beyond ASCII -/

theorem utf8_char (x : Nat) (h : x ≤ 0x10FFFF) (b : Bytes) : utf8Char x = .ok b ↔ Scalar x ∧ b = charUtf8 x := by
  unfold utf8Char charUtf8 Scalar
  split
  · exact ⟨fun e => ⟨Or.inl (by omega), (Except.ok.inj e).symm⟩, fun e => by rw [e.2]⟩
  · split
    · exact ⟨fun e => ⟨Or.inl (by omega), (Except.ok.inj e).symm⟩, fun e => by rw [e.2]⟩
    · split
      · exact ⟨(fun e => nomatch e), fun e => by omega⟩
      · split
        · exact ⟨fun e => ⟨by omega, (Except.ok.inj e).symm⟩, fun e => by rw [e.2]⟩
        · exact ⟨fun e => ⟨by omega, (Except.ok.inj e).symm⟩, fun e => by rw [e.2]⟩

/-- C70, C97: a password stands for its bytes in UTF-8; one with a lone surrogate stands for nothing, and opens nothing. -/
theorem C70_password_bytes (password : Text) (h : ∀ x ∈ password, x ≤ 0x10FFFF) (pw : Bytes) :
    utf8 password = .ok pw ↔ (∀ x ∈ password, Scalar x) ∧ pw = password.flatMap charUtf8 := by
  induction password generalizing pw with
  | nil => exact ⟨fun e => ⟨(fun _ h => by cases h), (Except.ok.inj e).symm⟩, fun e => by rw [e.2]; rfl⟩
  | cons x t ih =>
    have hx := utf8_char x (h x (by simp))
    have ht := ih (fun y hy => h y (by simp [hy]))
    unfold utf8
    constructor
    · intro e
      cases h1 : utf8Char x with
      | error _ => rw [h1] at e; cases e
      | ok a =>
        cases h2 : utf8 t with
        | error _ => rw [h1, h2] at e; cases e
        | ok b =>
          rw [h1, h2] at e
          obtain ⟨s1, e1⟩ := (hx a).mp h1
          obtain ⟨s2, e2⟩ := (ht b).mp h2
          refine ⟨fun y hy => ?_, ?_⟩
          · rcases List.mem_cons.mp hy with rfl | hy
            · exact s1
            · exact s2 y hy
          · rw [List.flatMap_cons, ← e1, ← e2]
            exact (Except.ok.inj e).symm
    · rintro ⟨hs, rfl⟩
      rw [(hx _).mpr ⟨hs x (by simp), rfl⟩, (ht _).mpr ⟨fun y hy => hs y (by simp [hy]), rfl⟩]
      rfl

/-- Letters beyond ASCII. -/
example : utf8 [0x70, 0xE9, 0x20AC, 0x1F600] = .ok ([0x70, 0xC3, 0xA9, 0xE2, 0x82, 0xAC, 0xF0, 0x9F, 0x98, 0x80] : Bytes) :=
  (C70_password_bytes _ (by decide) _).mpr ⟨by unfold Scalar; decide, by decide⟩

end PdfReader
