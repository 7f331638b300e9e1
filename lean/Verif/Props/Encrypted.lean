/-
  C45, C68, C70-C74: encrypted documents.
-/
import Verif.Props.Security
import Verif.Props.Locate

namespace PdfReader

open Spec

/-! ### C45: what is delivered decrypted -/

/-- The handler decrypts streams by this method. -/
def StreamMethod (h : Handler) (m : Cfm) : Prop :=
  (h.q.kind = .standard ∧ m = .rc4) ∨ (h.q.kind ≠ .standard ∧ cfmGet h.q.cfm h.q.stmf = some m)

/-- Streams with this dictionary are encrypted. -/
def Encrypted (h : Handler) (d : List (Bytes × Obj)) : Prop :=
  h.q.kind = .standard ∨ dictGet d b!"Type" ≠ some (.name b!"Metadata") ∨ h.q.encryptMetadata = true

theorem decrypt_stream {C : Crypto} {h : Handler} {m : Cfm} (hm : StreamMethod h m) {d : List (Bytes × Obj)} (he : Encrypted h d) {num gen : Nat} {raw data : Bytes}
    (hd : (match m with
      | .rc4 => decryptRc4 C h.key num gen raw
      | .aes128 => decryptAes128 C h.key num gen raw
      | .aes256 => decryptAes256 C h.key raw
      | .identity => .ok raw) = .ok data) :
    decryptIfNecessary C (some h) num gen (.stream d raw) = .ok (.stream (dictSet d b!"Length" (.int data.length)) data) := by
  have key : decryptData C h h.q.stmf num gen raw = .ok data := by
    unfold decryptData
    rcases hm with ⟨h1, rfl⟩ | ⟨h1, h2⟩
    · rw [if_pos h1]
      exact hd
    · rw [if_neg h1, h2]
      cases m <;> exact hd
  unfold decryptIfNecessary
  dsimp only
  unfold decryptObj
  dsimp only
  unfold Encrypted at he
  rw [if_pos he, key]

/-- The method which the name of a CFM entry stands for. -/
def methodOf : List (Bytes × Cfm) := [(b!"V2", .rc4), (b!"AESV2", .aes128), (b!"AESV3", .aes256)]

theorem cfLoop_get {k : HandlerKind} {f : Bytes} {fd : List (Bytes × Obj)} {m : Bytes} (hm : dictGet fd b!"CFM" = some (.name m)) :
    ∀ (cf : List (Bytes × Obj)) (fs : List (Bytes × Cfm)), cfLoop k cf = .ok fs → dictGet cf f = some (.dict fd) →
    ∃ x, getCfm k (.name m) = some x ∧ assoc f fs = some x := by
  intro cf
  induction cf with
  | nil => intro fs _ h; cases h
  | cons e cf ih =>
    intro fs h hg
    obtain ⟨n, o⟩ := e
    cases o with
    | dict v =>
      unfold cfLoop at h
      cases hc : dictGet v b!"CFM" with
      | none => rw [hc] at h; cases h
      | some mm =>
        rw [hc] at h
        dsimp only at h
        cases hx : getCfm k mm with
        | none => rw [hx] at h; cases h
        | some x =>
          rw [hx] at h
          dsimp only at h
          cases hl : cfLoop k cf with
          | error e => rw [hl] at h; cases h
          | ok gs =>
            rw [hl] at h
            injection h with h
            subst h
            unfold dictGet at hg
            unfold assoc
            dsimp only
            by_cases e : n = f
            · rw [if_pos e] at hg
              injection hg with hg
              injection hg with hg
              subst hg
              rw [hm] at hc
              injection hc with hc
              subst hc
              rw [if_pos e]
              exact ⟨x, hx, rfl⟩
            · rw [if_neg e] at hg
              rw [if_neg e]
              exact ih gs hl hg
    | _ => unfold cfLoop at h; cases h

theorem v4Params_inv {kind : HandlerKind} {id : Option Obj} {d : List (Bytes × Obj)} {q : EncParams} (h : v4Params kind id d = .ok q) :
    q.kind = kind ∧ ∃ cf stmf strf, dictGet d b!"CF" = some (.dict cf) ∧ dictGet d b!"StmF" = some (.name stmf) ∧
      dictGet d b!"StrF" = some (.name strf) ∧ cfLoop kind cf = .ok q.cfm ∧ q.stmf = stmf ∧ q.strf = strf ∧
      q.encryptMetadata = encryptsMetadata (dictGet d b!"EncryptMetadata") := by
  have hk : ∀ q, baseParams kind id d = .ok q → q.kind = kind := by
    intro q h
    unfold baseParams at h
    repeat' split at h
    all_goals first | cases h; rfl | cases h
  unfold v4Params at h
  repeat' split at h
  all_goals first
    | cases h; done
    | (injection h with h; subst h; rename_i hb _ _ _ _ h1 h2 _ _ h3 _ _ h4 _
       refine ⟨?_, _, _, _, h3, h1, h2, h4, rfl, rfl, rfl⟩
       dsimp only; exact hk _ hb)

/-- C45: which method decrypts the streams of an open document: RC4 for versions 1 to 3; for versions 4 and 5 the one which the crypt filter
named by StmF gives, and none for Identity. -/
theorem C45_method (C : Crypto) (id : Option Obj) (d : List (Bytes × Obj)) (password : Text) (h : Handler)
    (ho : mkHandler C id d password = .ok h) (v : Int) (hV : dictGet d b!"V" = some (.int v)) :
    ((v = 1 ∨ v = 2 ∨ v = 3) → StreamMethod h .rc4 ∧ ∀ es, Encrypted h es) ∧
    ((v = 4 ∨ v = 5) → dictGet d b!"StmF" = some (.name b!"Identity") → StreamMethod h .identity) ∧
    ((v = 4 ∨ v = 5) → ∀ f cf fd m, dictGet d b!"StmF" = some (.name f) → f ≠ b!"Identity" → dictGet d b!"CF" = some (.dict cf) →
      dictGet cf f = some (.dict fd) → dictGet fd b!"CFM" = some (.name m) → ∃ x, (m, x) ∈ methodOf ∧ StreamMethod h x) ∧
    ((v = 4 ∨ v = 5) → ∀ es, Encrypted h es ↔
      (dictGet es b!"Type" ≠ some (.name b!"Metadata") ∨ encryptsMetadata (dictGet d b!"EncryptMetadata") = true)) := by
  have hinit : ∀ pw q, initHandler C pw q = .ok h → h.q = q := by
    intro pw q hi
    unfold initHandler at hi
    repeat' split at hi
    all_goals first | (injection hi with hi; subst hi; rfl) | cases hi
  have h0 : ∃ q, paramsOf id d = .ok q ∧ h.q = q := by
    unfold mkHandler at ho
    repeat' split at ho
    all_goals first | (rename_i _ _ _ _ hq; exact ⟨_, hq, hinit _ _ ho⟩) | cases ho
  obtain ⟨q, hq, e⟩ := h0
  unfold paramsOf at hq
  rw [hV] at hq
  dsimp only [Option.getD_some] at hq
  have h45 : (v = 4 ∨ v = 5) → q.kind ≠ .standard ∧ ∃ k cf stmf strf, (k = .v4 ∨ k = .v5) ∧ dictGet d b!"CF" = some (.dict cf) ∧
      dictGet d b!"StmF" = some (.name stmf) ∧ dictGet d b!"StrF" = some (.name strf) ∧ cfLoop k cf = .ok q.cfm ∧ q.stmf = stmf ∧
      q.encryptMetadata = encryptsMetadata (dictGet d b!"EncryptMetadata") := by
    intro hv
    rw [if_neg (by omega)] at hq
    rcases hv with rfl | rfl
    · rw [if_pos rfl] at hq
      obtain ⟨hk, cf, a, b, h1, h2, h3, h4, h5, h6, h7⟩ := v4Params_inv hq
      exact ⟨by rw [hk]; decide, _, cf, a, b, Or.inl rfl, h1, h2, h3, h4, h5, h7⟩
    · rw [if_neg (by omega), if_pos rfl] at hq
      unfold v5Params at hq
      cases h4 : v4Params .v5 id d with
      | error e => rw [h4] at hq; cases hq
      | ok r =>
        rw [h4] at hq
        dsimp only at hq
        obtain ⟨hk, cf, a, b, h1, h2, h3, h4, h5, h6, h7⟩ := v4Params_inv h4
        repeat' split at hq
        all_goals first
          | (injection hq with hq; subst hq; exact ⟨by show r.kind ≠ _; rw [hk]; decide, _, cf, a, b, Or.inr rfl, h1, h2, h3, h4, h5, h7⟩)
          | cases hq
  subst e
  refine ⟨fun hv => ?_, fun hv hs => ?_, fun hv f cf fd m hs hf hc hg hm => ?_, fun hv es => ?_⟩
  · rw [if_pos hv] at hq
    have hk : h.q.kind = .standard := by
      unfold baseParams at hq
      repeat' split at hq
      all_goals first | (injection hq with hq; rw [← hq]) | cases hq
    exact ⟨Or.inl ⟨hk, rfl⟩, fun es => Or.inl hk⟩
  · obtain ⟨hk, k, cf, a, b, _, _, h2, _, _, h5, _⟩ := h45 hv
    refine Or.inr ⟨hk, ?_⟩
    rw [hs] at h2
    injection h2 with h2
    injection h2 with h2
    rw [h5, ← h2]
    rfl
  · obtain ⟨hk, k, cf', a, b, hkk, h1, h2, _, h4, h5, _⟩ := h45 hv
    rw [hc] at h1
    injection h1 with h1
    injection h1 with h1
    subst h1
    rw [hs] at h2
    injection h2 with h2
    injection h2 with h2
    subst h2
    obtain ⟨x, hx, ha⟩ := cfLoop_get hm _ _ h4 hg
    refine ⟨x, ?_, Or.inr ⟨hk, ?_⟩⟩
    · unfold getCfm at hx
      rcases hkk with rfl | rfl
      · dsimp only at hx
        split at hx
        · rename_i e; subst e; injection hx with hx; subst hx; simp [methodOf]
        · split at hx
          · rename_i e; subst e; injection hx with hx; subst hx; simp [methodOf]
          · cases hx
      · dsimp only at hx
        split at hx
        · rename_i e; subst e; injection hx with hx; subst hx; simp [methodOf]
        · cases hx
    · rw [h5]
      unfold cfmGet
      rw [if_neg hf]
      exact ha
  · obtain ⟨hk, k, cf', a, b, _, _, _, _, _, _, h7⟩ := h45 hv
    unfold Encrypted
    rw [h7]
    exact ⟨fun h => h.resolve_left hk, Or.inr⟩

/-- C45, for streams encrypted with RC4: an object of the file which is such a stream (with a direct Length), listed in the
cross-reference sections, is delivered with its data decrypted. -/
theorem C45_rc4_streams_partial (C : Crypto) (hmd : ∀ x, (C.md5 x).length = 16) (enc : Bytes → Bytes → Bytes) (h : Handler) (hm : StreamMethod h .rc4)
    (env : Env) (henv : env.dec = decryptIfNecessary C (some h))
    (newer older : List XRef) (x : XRef) (n g off : Nat) (d : List (Bytes × Obj)) (data : Bytes) (t rest : Bytes) (s : St)
    (he : Encrypted h d) (hn : n < 4294967296) (hg : g < 4294967296)
    (hx : env.xrefs = newer ++ x :: older) (hnewer : ∀ y ∈ newer, ¬ ∃ e, natGet y.inUse n = some e ∧ e.gen = g)
    (hent : natGet x.inUse n = some ⟨off, g⟩)
    (ht : IndText n g (.stream d (rc4 (objectKey (ciphers C enc) h.key false n g) data)) t) (hd : env.file.drop off = t ++ rest)
    (hw : isObjStm (.stream (dictSet d b!"Length" (.int data.length)) data) = false) (hs : regGet s.reg (n, g) = none) (fuel : Nat)
    (hfuel : newer.length + 4 ≤ fuel) :
    (locate env fuel n g s).1 = .ok (.stream (dictSet d b!"Length" (.int data.length)) data) :=
  C29_newest_listed_partial env newer older x n g off _ _ t rest s hx hnewer hent ht hd
    (by rw [henv]; exact decrypt_stream hm he (C43_object C hmd enc h.key n g hn hg data)) hw hs fuel hfuel

/-- C45, for streams encrypted with AES: the decrypted data are the blocks that were encrypted (with their padding, see C71). -/
theorem C45_aes_streams_partial (C : Crypto) (hmd : ∀ x, (C.md5 x).length = 16) (enc : Bytes → Bytes → Bytes) (ha : IsAes C enc) (h : Handler)
    (aes : Cfm) (hm : StreamMethod h aes) (key : Bytes)
    (env : Env) (henv : env.dec = decryptIfNecessary C (some h))
    (newer older : List XRef) (x : XRef) (n g off : Nat) (d : List (Bytes × Obj)) (iv : Bytes) (bs : List Bytes) (t rest : Bytes) (s : St)
    (hkey : (aes = .aes128 ∧ h.key.length = 16 ∧ key = objectKey (ciphers C enc) h.key true n g) ∨ (aes = .aes256 ∧ h.key.length = 32 ∧ key = h.key))
    (hiv : iv.length = 16) (hb : ∀ b ∈ bs, b.length = 16)
    (he : Encrypted h d) (hn : n < 4294967296) (hg : g < 4294967296)
    (hx : env.xrefs = newer ++ x :: older) (hnewer : ∀ y ∈ newer, ¬ ∃ e, natGet y.inUse n = some e ∧ e.gen = g)
    (hent : natGet x.inUse n = some ⟨off, g⟩)
    (ht : IndText n g (.stream d (iv ++ cbcEncrypt (enc key) iv bs)) t) (hd : env.file.drop off = t ++ rest)
    (hw : isObjStm (.stream (dictSet d b!"Length" (.int bs.flatten.length)) bs.flatten) = false) (hs : regGet s.reg (n, g) = none) (fuel : Nat)
    (hfuel : newer.length + 4 ≤ fuel) :
    (locate env fuel n g s).1 = .ok (.stream (dictSet d b!"Length" (.int bs.flatten.length)) bs.flatten) := by
  refine C29_newest_listed_partial env newer older x n g off _ _ t rest s hx hnewer hent ht hd ?_ hw hs fuel hfuel
  rw [henv]
  rcases hkey with ⟨rfl, hl, rfl⟩ | ⟨rfl, hl, rfl⟩
  · exact decrypt_stream hm he (C44_object128 C hmd enc ha h.key hl n g hn hg iv hiv bs hb)
  · exact decrypt_stream hm he (C44_object256 C enc ha h.key hl iv hiv bs hb)

/-- C45, counterexample: whatever the handler, an indirect object which is a string is never delivered: the exception is AttributeError, or
that of the decryption. -/
theorem C45_string_counterexample (C : Crypto) (h : Handler) (n g : Nat) (s : Bytes) :
    ∃ e, decryptIfNecessary C (some h) n g (.str s) = .error e ∧
      ∀ p, decryptData C h h.q.strf n g s = .ok p → e = .attributeError := by
  unfold decryptIfNecessary
  dsimp only
  unfold decryptObj
  dsimp only
  cases hd : decryptData C h h.q.strf n g s with
  | error e => exact ⟨e, rfl, fun p hp => by cases hp⟩
  | ok p => exact ⟨.attributeError, rfl, fun _ _ => rfl⟩

/-- C45, counterexample: a hexadecimal string as indirect object is a TypeError. -/
theorem C45_hex_counterexample (C : Crypto) (h : Handler) (n g : Nat) (s : Bytes) : decryptIfNecessary C (some h) n g (.hex s) = .error .typeError := rfl

/-- C45, counterexample: strings inside of arrays and dictionaries are delivered as they are in the file, that is encrypted: the handler
changes no array and no dictionary, whatever they contain. -/
theorem C45_nested_counterexample (C : Crypto) (h : Option Handler) (n g : Nat) (xs : List Obj) (d : List (Bytes × Obj)) :
    decryptIfNecessary C h n g (.arr xs) = .ok (.arr xs) ∧ decryptIfNecessary C h n g (.dict d) = .ok (.dict d) := by
  cases h <;> exact ⟨rfl, rfl⟩

/-! ### C74: what is not encrypted -/

/-- C74: with EncryptMetadata false, Metadata streams are delivered as they are. -/
theorem C74_metadata (C : Crypto) (h : Handler) (n g : Nat) (d : List (Bytes × Obj)) (data : Bytes) (hk : h.q.kind ≠ .standard)
    (he : h.q.encryptMetadata = false) (ht : dictGet d b!"Type" = some (.name b!"Metadata")) :
    decryptIfNecessary C (some h) n g (.stream d data) = .ok (.stream d data) := by
  unfold decryptIfNecessary
  dsimp only
  unfold decryptObj
  dsimp only
  rw [if_neg]
  rintro (h1 | h1 | h1)
  · exact hk h1
  · exact h1 ht
  · rw [he] at h1; cases h1

/-- C74: with the crypt filter Identity for streams, the data of streams stay. -/
theorem C74_identity (C : Crypto) (h : Handler) (n g : Nat) (d : List (Bytes × Obj)) (data : Bytes) (hk : h.q.kind ≠ .standard)
    (hf : h.q.stmf = b!"Identity") :
    ∃ d', decryptIfNecessary C (some h) n g (.stream d data) = .ok (.stream d' data) ∧ ∀ k, k ≠ b!"Length" → dictGet d' k = dictGet d k := by
  by_cases he : Encrypted h d
  · refine ⟨_, decrypt_stream (m := .identity) (Or.inr ⟨hk, ?_⟩) he rfl, ?_⟩
    · unfold cfmGet
      rw [if_pos hf]
    · intro k hkl
      induction d with
      | nil =>
        show (if b!"Length" = k then some _ else none) = none
        rw [if_neg (fun e => hkl e.symm)]
      | cons e d ih =>
        obtain ⟨k', v'⟩ := e
        have ihd : ∀ v, dictGet (dictSet d b!"Length" v) k = dictGet d k := by
          intro v
          clear ih he
          induction d with
          | nil =>
            show (if b!"Length" = k then some _ else none) = none
            rw [if_neg (fun e => hkl e.symm)]
          | cons e d ih =>
            obtain ⟨k', v'⟩ := e
            unfold dictSet
            split
            · rename_i e
              unfold dictGet
              rw [if_neg (fun e => hkl e.symm), if_neg (fun h => hkl (h.symm.trans e))]
            · unfold dictGet
              rw [ih]
        unfold dictSet
        split
        · rename_i e
          unfold dictGet
          rw [if_neg (fun e => hkl e.symm), if_neg (fun h => hkl (h.symm.trans e))]
        · unfold dictGet
          rw [ihd]
  · refine ⟨d, ?_, fun _ _ => rfl⟩
    unfold decryptIfNecessary
    dsimp only
    unfold decryptObj
    dsimp only
    unfold Encrypted at he
    rw [if_neg he]

/-! ### C68: encoding of passwords -/

/-- C68, for ASCII: the bytes of a password in PDFDocEncoding are those which the code uses. -/
theorem C68_ascii_partial (t : Text) : ∀ (pw : Bytes), Writes pdfDocChar pw t → (∀ x ∈ t, x < 0x80) → utf8 t = .ok pw := by
  induction t with
  | nil =>
    intro pw h _
    cases pw with
    | nil => rfl
    | cons b s =>
      obtain ⟨x, u, e, _⟩ := h
      cases e
  | cons x t ih =>
    intro pw h ha
    cases pw with
    | nil => cases h
    | cons b s =>
      obtain ⟨x', u, e, hc, hr⟩ := h
      injection e with e1 e2
      subst e1
      subst e2
      have hx := ha x List.mem_cons_self
      have key : ∀ b : Byte, ((pdfDocChar b.toNat).getD 0x80 < 0x80) → (pdfDocChar b.toNat).getD 0x80 = b.toNat := forall_u8 _ (by decide +kernel)
      have hb : x = b.toNat := by
        have := key b
        rw [hc] at this
        exact this hx
      rw [utf8, ih s hr (fun y hy => ha y (List.mem_cons_of_mem _ hy))]
      unfold utf8Char
      rw [if_pos hx, hb]
      simp

/-- C68, counterexample: the password `é` is the byte E9 in PDFDocEncoding, and the code uses C3 A9. -/
theorem C68_counterexample : Writes pdfDocChar [0xE9] [0xE9] ∧ utf8 [0xE9] = .ok [0xC3, 0xA9] :=
  ⟨⟨0xE9, [], rfl, by decide, rfl⟩, by decide⟩

example : utf8 [0x50, 0x57, 0x21] = .ok b!"PW!" :=
  C68_ascii_partial _ _ ⟨_, _, rfl, by decide, _, _, rfl, by decide, _, _, rfl, by decide, rfl⟩ (by decide)

/-! ### C70: version 5 -/

theorem params5 {id : Option Obj} {d : List (Bytes × Obj)} {E : EncInfo5} (h : Describes5 id d E) :
    ∃ q, paramsOf id d = .ok q ∧ q.kind = .v5 ∧ q.r = .int 5 ∧ q.o = E.entryO ∧ q.u = E.entryU ∧ q.oe = E.oe ∧ q.ue = E.ue := by
  obtain ⟨⟨hx, rest, b, h1, h2⟩, hV, hR, hP, hO, hU, hOE, hUE, hf, _⟩ := h
  obtain ⟨p, hp⟩ := Option.isSome_iff_exists.mp hP
  have hbase : baseParams .v5 id d = .ok ⟨.v5, b, .int 5, p, E.entryO, E.entryU, (dictGet d b!"Length").getD (.int 40), true, [], [], [], [], []⟩ := by
    unfold baseParams docidOf
    rw [h1]
    dsimp only
    rw [hexOf_fromHex h2, hR, hp]
    dsimp only
    rw [entryBytes_ok hO, entryBytes_ok hU]
  obtain ⟨cfm, stmf, strf, hq⟩ := v4Params_ok (kind := .v5) (methods := [b!"AESV3"]) (by decide) hbase hf
  have h5 : v5Params id d = .ok { kind := .v5, docid := b, r := .int 5, p := p, o := E.entryO, u := E.entryU, length := .int 256, encryptMetadata := encryptsMetadata (dictGet d b!"EncryptMetadata"), cfm := cfm, stmf := stmf, strf := strf, oe := E.oe, ue := E.ue } := by
    unfold v5Params
    rw [hq]
    dsimp only
    rw [hOE, hUE]
  refine ⟨_, Eq.trans ?_ h5, rfl, rfl, rfl, rfl, rfl, rfl⟩
  unfold paramsOf
  rw [hV]
  dsimp only [Option.getD_some]
  rw [if_neg (by omega), if_neg (by omega), if_pos rfl]

theorem split5 {a b c : Bytes} (ha : a.length = 32) (hb : b.length = 8) :
    (a ++ (b ++ c)).take 32 = a ∧ ((a ++ (b ++ c)).drop 32).take 8 = b ∧ (a ++ (b ++ c)).drop 40 = c := by
  have e : (a ++ (b ++ c)).drop 32 = b ++ c := by rw [← ha, List.drop_left]
  refine ⟨by rw [← ha, List.take_left], ?_, ?_⟩
  · rw [e, ← hb, List.take_left]
  · rw [show (40 : Nat) = 32 + 8 from rfl, ← List.drop_drop, e, ← hb, List.drop_left]

/-- C70: the owner password of a document of version 5 opens it with the file key. -/
theorem C70_owner (C : Crypto) (hsha : ∀ x, (C.sha256 x).length = 32) (enc : Bytes → Bytes → Bytes) (ha : IsAes C enc) (id : Option Obj)
    (d : List (Bytes × Obj)) (E : EncInfo5) (h : Describes5 id d E) (password : Text) (pw : Bytes) (hp : utf8 password = .ok pw) (k1 k2 : Bytes)
    (h1 : k1.length = 16) (h2 : k2.length = 16) (ho : Owner5 (ciphers C enc) E pw k1 k2) :
    ∃ hd, mkHandler C id d password = .ok hd ∧ hd.key = k1 ++ k2 := by
  obtain ⟨q, hq, qk, qr, qo, qu, qoe, que⟩ := params5 h
  obtain ⟨_, _, _, _, _, _, _, _, _, l1, l2, l3, l4, l5, l6⟩ := h
  obtain ⟨s1, s2, s3⟩ := split5 (c := E.oKey) l1 l2
  refine ⟨⟨q, k1 ++ k2⟩, ?_, rfl⟩
  unfold mkHandler
  rw [hp, hq]
  dsimp only
  unfold initHandler authenticate
  rw [qk, qr, if_pos rfl, if_pos (by decide)]
  unfold authV5
  dsimp only
  rw [qo, qu, qoe]
  unfold EncInfo5.entryO at *
  rw [s1, s2, s3, if_pos (by rw [ho.1, List.append_assoc]; rfl), ho.2]
  have := aesCbc_ok ha (key := C.sha256 (pw.take 127 ++ (E.oKey ++ E.entryU))) (iv := List.replicate 16 0) (Or.inr (Or.inr (hsha _))) (by simp)
    (bs := [k1, k2]) (by simp [h1, h2])
  rw [List.append_assoc]
  show (match (aesCbc C (C.sha256 (pw.take 127 ++ (E.oKey ++ E.entryU))) (List.replicate 16 0) (cbcEncrypt (enc (C.sha256 (pw.take 127 ++ (E.oKey ++ E.entryU)))) (List.replicate 16 0) [k1, k2])).map some with | .error e => (.error e : Res Handler) | .ok (some key) => .ok ⟨q, key⟩ | .ok none => .error .valueError) = _
  rw [this]
  simp [Except.map]

/-- C70: the user password of a document of version 5 opens it with the file key, unless it happens to pass the check for owner passwords. -/
theorem C70_user (C : Crypto) (hsha : ∀ x, (C.sha256 x).length = 32) (enc : Bytes → Bytes → Bytes) (ha : IsAes C enc) (id : Option Obj)
    (d : List (Bytes × Obj)) (E : EncInfo5) (h : Describes5 id d E) (password : Text) (pw : Bytes) (hp : utf8 password = .ok pw) (k1 k2 : Bytes)
    (h1 : k1.length = 16) (h2 : k2.length = 16) (hu : User5 (ciphers C enc) E pw k1 k2)
    (hacc : C.sha256 (pw.take 127 ++ (E.oValidation ++ E.entryU)) ≠ E.o) :
    ∃ hd, mkHandler C id d password = .ok hd ∧ hd.key = k1 ++ k2 := by
  obtain ⟨q, hq, qk, qr, qo, qu, qoe, que⟩ := params5 h
  obtain ⟨_, _, _, _, _, _, _, _, _, l1, l2, l3, l4, l5, l6⟩ := h
  obtain ⟨s1, s2, s3⟩ := split5 (c := E.oKey) l1 l2
  obtain ⟨t1, t2, t3⟩ := split5 (c := E.uKey) l4 l5
  refine ⟨⟨q, k1 ++ k2⟩, ?_, rfl⟩
  unfold mkHandler
  rw [hp, hq]
  dsimp only
  unfold initHandler authenticate
  rw [qk, qr, if_pos rfl, if_pos (by decide)]
  unfold authV5
  dsimp only
  rw [qo, qu, que]
  have e1 : E.entryO.take 32 = E.o := s1
  have e2 : (E.entryO.drop 32).take 8 = E.oValidation := s2
  have f1 : E.entryU.take 32 = E.u := t1
  have f2 : (E.entryU.drop 32).take 8 = E.uValidation := t2
  have f3 : E.entryU.drop 40 = E.uKey := t3
  rw [e1, e2, if_neg (by rw [List.append_assoc]; exact hacc), f1, f2, f3, if_pos (by rw [hu.1]; rfl), hu.2]
  have := aesCbc_ok ha (key := C.sha256 (pw.take 127 ++ E.uKey)) (iv := List.replicate 16 0) (Or.inr (Or.inr (hsha _))) (by simp)
    (bs := [k1, k2]) (by simp [h1, h2])
  show (match (aesCbc C (C.sha256 (pw.take 127 ++ E.uKey)) (List.replicate 16 0) (cbcEncrypt (enc (C.sha256 (pw.take 127 ++ E.uKey))) (List.replicate 16 0) [k1, k2])).map some with | .error e => (.error e : Res Handler) | .ok (some key) => .ok ⟨q, key⟩ | .ok none => .error .valueError) = _
  rw [this]
  simp [Except.map]

/-- C70: a password which passes neither check is refused with ValueError. -/
theorem C70_refused (C : Crypto) (id : Option Obj) (d : List (Bytes × Obj)) (E : EncInfo5) (h : Describes5 id d E) (password : Text) (pw : Bytes)
    (hp : utf8 password = .ok pw) (h1 : C.sha256 (pw.take 127 ++ (E.oValidation ++ E.entryU)) ≠ E.o)
    (h2 : C.sha256 (pw.take 127 ++ E.uValidation) ≠ E.u) : mkHandler C id d password = .error .valueError := by
  obtain ⟨q, hq, qk, qr, qo, qu, qoe, que⟩ := params5 h
  obtain ⟨_, _, _, _, _, _, _, _, _, l1, l2, l3, l4, l5, l6⟩ := h
  obtain ⟨s1, s2, s3⟩ := split5 (c := E.oKey) l1 l2
  obtain ⟨t1, t2, t3⟩ := split5 (c := E.uKey) l4 l5
  unfold mkHandler
  rw [hp, hq]
  dsimp only
  unfold initHandler authenticate
  rw [qk, qr, if_pos rfl, if_pos (by decide)]
  unfold authV5
  dsimp only
  rw [qo, qu]
  have e1 : E.entryO.take 32 = E.o := s1
  have e2 : (E.entryO.drop 32).take 8 = E.oValidation := s2
  have f1 : E.entryU.take 32 = E.u := t1
  have f2 : (E.entryU.drop 32).take 8 = E.uValidation := t2
  rw [e1, e2, if_neg (by rw [List.append_assoc]; exact h1), f1, f2, if_neg h2]

/-! The hypotheses are met: a document of version 5 with the toy functions. -/

theorem toy_sha (x : Bytes) : (toyCrypto.sha256 x).length = 32 := by
  show ((x ++ List.replicate 32 9).take 32).length = 32
  rw [List.length_take, List.length_append, List.length_replicate]
  omega

theorem toy_aes : IsAes toyCrypto toyEnc := by
  intro key b h
  exact ⟨by show b.reverse.length = 16; rw [List.length_reverse, h], List.reverse_reverse b⟩

def toyE5 : EncInfo5 :=
  let v := List.replicate 8 1
  let k := List.replicate 8 2
  let u := toyCrypto.sha256 (b!"user" ++ v)
  ⟨toyCrypto.sha256 (b!"owner" ++ (v ++ (u ++ (v ++ k)))), v, k,
   cbcEncrypt (toyEnc (toyCrypto.sha256 (b!"owner" ++ (k ++ (u ++ (v ++ k)))))) (List.replicate 16 0) [List.replicate 16 5, List.replicate 16 6],
   u, v, k, cbcEncrypt (toyEnc (toyCrypto.sha256 (b!"user" ++ k))) (List.replicate 16 0) [List.replicate 16 5, List.replicate 16 6]⟩

def toyDict5 : List (Bytes × Obj) :=
  [(b!"V", .int 5), (b!"R", .int 5), (b!"P", .int (-4)), (b!"O", .str toyE5.entryO), (b!"U", .str toyE5.entryU), (b!"OE", .str toyE5.oe), (b!"UE", .str toyE5.ue),
   (b!"CF", .dict [(b!"StdCF", .dict [(b!"CFM", .name b!"AESV3")])]), (b!"StmF", .name b!"StdCF"), (b!"StrF", .name b!"StdCF")]

theorem toy_describes5 : Describes5 toyId toyDict5 toyE5 := by
  refine ⟨⟨b!"0102", [.hex b!"0102"], [1, 2], rfl, ?_⟩, rfl, rfl, rfl, Or.inl rfl, Or.inl rfl, rfl, rfl, ?_, rfl, rfl, rfl, rfl, rfl, rfl⟩
  · exact ⟨48, 49, _, rfl, 0, 1, rfl, rfl, rfl, 48, 50, _, rfl, 0, 2, rfl, rfl, rfl, rfl⟩
  · refine ⟨[(b!"StdCF", .dict [(b!"CFM", .name b!"AESV3")])], b!"StdCF", b!"StdCF", rfl, ?_, rfl, rfl, by decide, by decide⟩
    intro e he
    rw [List.mem_singleton] at he
    subst he
    exact ⟨_, _, rfl, rfl, by decide⟩

example : ∃ hd, mkHandler toyCrypto toyId toyDict5 [111, 119, 110, 101, 114] = .ok hd ∧ hd.key = List.replicate 16 5 ++ List.replicate 16 6 :=
  C70_owner toyCrypto toy_sha toyEnc toy_aes _ _ _ toy_describes5 _ b!"owner" (by decide) _ _ rfl rfl ⟨rfl, rfl⟩

example : ∃ hd, mkHandler toyCrypto toyId toyDict5 [117, 115, 101, 114] = .ok hd ∧ hd.key = List.replicate 16 5 ++ List.replicate 16 6 :=
  C70_user toyCrypto toy_sha toyEnc toy_aes _ _ _ toy_describes5 _ b!"user" (by decide) _ _ rfl rfl ⟨rfl, rfl⟩ (by decide +kernel)

/-! ### C71: padding -/

/-- C71, what holds: data encrypted with AES as ISO 32000-1 says, with padding, decrypt to the data followed by something. -/
theorem C71_prefix_partial (C : Crypto) (hmd : ∀ x, (C.md5 x).length = 16) (enc : Bytes → Bytes → Bytes) (ha : IsAes C enc) (key : Bytes) (hk : key.length = 16)
    (num gen : Nat) (hn : num < 4294967296) (hg : gen < 4294967296) (iv : Bytes) (hiv : iv.length = 16) (data : Bytes) (bs : List Bytes)
    (hb : ∀ b ∈ bs, b.length = 16) (hbs : bs.flatten = data ++ pkcs data) :
    decryptAes128 C key num gen (iv ++ cbcEncrypt (enc (objectKey (ciphers C enc) key true num gen)) iv bs) = .ok (data ++ pkcs data) := by
  rw [C44_object128 C hmd enc ha key hk num gen hn hg iv hiv bs hb, hbs]

/-- C71, counterexample: the padding is never empty, so that the data never come out as they were. -/
theorem C71_counterexample (C : Crypto) (hmd : ∀ x, (C.md5 x).length = 16) (enc : Bytes → Bytes → Bytes) (ha : IsAes C enc) (key : Bytes) (hk : key.length = 16)
    (num gen : Nat) (hn : num < 4294967296) (hg : gen < 4294967296) (iv : Bytes) (hiv : iv.length = 16) (data : Bytes) (bs : List Bytes)
    (hb : ∀ b ∈ bs, b.length = 16) (hbs : bs.flatten = data ++ pkcs data) :
    decryptAes128 C key num gen (iv ++ cbcEncrypt (enc (objectKey (ciphers C enc) key true num gen)) iv bs) ≠ .ok data := by
  rw [C71_prefix_partial C hmd enc ha key hk num gen hn hg iv hiv data bs hb hbs]
  intro e
  injection e with e
  have := congrArg List.length e
  rw [List.length_append] at this
  unfold pkcs at this
  rw [List.length_replicate] at this
  omega

/-! ### C72, C73: the trailer -/

/-- C72, counterexample: if the first string of ID is a literal string, then no encrypted document of a supported version can be opened: the
exception is TypeError, whatever the password. -/
theorem C72_counterexample (C : Crypto) (s : Bytes) (rest : List Obj) (d : List (Bytes × Obj)) (v : Int) (hV : dictGet d b!"V" = some (.int v))
    (hv : 1 ≤ v ∧ v ≤ 5) (password : Text) (pw : Bytes) (hp : utf8 password = .ok pw) :
    mkHandler C (some (.arr (.str s :: rest))) d password = .error .typeError := by
  have hb : ∀ k, baseParams k (some (.arr (.str s :: rest))) d = .error .typeError := fun _ => rfl
  have h4 : ∀ k, v4Params k (some (.arr (.str s :: rest))) d = .error .typeError := by
    intro k
    unfold v4Params
    rw [hb]
  have h5 : v5Params (some (.arr (.str s :: rest))) d = .error .typeError := by
    unfold v5Params
    rw [h4]
  unfold mkHandler paramsOf
  rw [hp, hV]
  dsimp only [Option.getD_some]
  rw [hb, h4, h5]
  by_cases c1 : v = 1 ∨ v = 2 ∨ v = 3
  · rw [if_pos c1]
  · rw [if_neg c1]
    by_cases c4 : v = 4
    · rw [if_pos c4]
    · rw [if_neg c4, if_pos (by omega)]

/-- C73: without Encrypt in the trailer there is no handler. -/
theorem C73_unencrypted (C : Crypto) (resolve : Nat → Nat → Res Obj) (trailer : List (Bytes × Obj)) (password : Text)
    (h : dictGet trailer b!"Encrypt" = none) : docHandler C resolve trailer password = .ok none := by
  unfold docHandler
  rw [h]

/-- C73: a referenced encryption dictionary with `/Filter /Standard` is used with the ID of the trailer. -/
theorem C73_reference_partial (C : Crypto) (resolve : Nat → Nat → Res Obj) (trailer : List (Bytes × Obj)) (password : Text) (n g : Nat)
    (d : List (Bytes × Obj)) (x : Obj) (xs : List Obj) (h : dictGet trailer b!"Encrypt" = some (.ref n g)) (hr : resolve n g = .ok (.dict d))
    (hf : dictGet d b!"Filter" = some (.name b!"Standard")) (hid : dictGet trailer b!"ID" = some (.arr (x :: xs))) :
    docHandler C resolve trailer password = (mkHandler C (some (.arr (x :: xs))) d password).map some := by
  unfold docHandler
  rw [h, hid]
  dsimp only
  rw [hr]
  cases d with
  | nil => cases hf
  | cons e d =>
    dsimp only
    rw [if_neg (by rw [hf]; simp)]

/-- C73: other encryption handlers are refused with ValueError. -/
theorem C73_otherFilter (C : Crypto) (resolve : Nat → Nat → Res Obj) (trailer : List (Bytes × Obj)) (password : Text) (n g : Nat)
    (d : List (Bytes × Obj)) (h : dictGet trailer b!"Encrypt" = some (.ref n g)) (hr : resolve n g = .ok (.dict d)) (hne : d ≠ [])
    (hf : dictGet d b!"Filter" ≠ some (.name b!"Standard")) : docHandler C resolve trailer password = .error .valueError := by
  unfold docHandler
  rw [h]
  dsimp only
  rw [hr]
  cases d with
  | nil => exact absurd rfl hne
  | cons e d =>
    dsimp only
    rw [if_pos hf]

/-- C73, counterexample: an encryption dictionary which stands in the trailer itself cannot be used: AttributeError. -/
theorem C73_direct_counterexample (C : Crypto) (resolve : Nat → Nat → Res Obj) (trailer : List (Bytes × Obj)) (password : Text)
    (d : List (Bytes × Obj)) (h : dictGet trailer b!"Encrypt" = some (.dict d)) (hne : d ≠ []) :
    docHandler C resolve trailer password = .error .attributeError := by
  unfold docHandler
  rw [h]
  cases d with
  | nil => exact absurd rfl hne
  | cons e d => rfl

end PdfReader
