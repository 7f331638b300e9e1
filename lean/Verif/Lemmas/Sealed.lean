/-
  Encrypted documents: the handler, decryption of what is stored, and finding the encryption dictionary.
-/
import Verif.Model.Secure
import Verif.Spec.Sealed
import Verif.Props.Encrypted
import Verif.Props.File

namespace PdfReader

open Spec

/-! ### Passwords -/

theorem padded_full {u : Bytes} (h : u.length = 32) : padded u = u := by
  unfold padded
  rw [List.take_of_length_le (by omega), h]
  exact List.append_nil u

theorem fold_length (key : Bytes) (is : List Nat) : ∀ x, (is.foldl (chainStep key) x).length = x.length := by
  induction is with
  | nil => intro x; rfl
  | cons i is ih => intro x; rw [List.foldl_cons, ih]; exact rc4_length _ _

/-- Every O of 32 bytes is what algorithm 3 makes of the password it is decrypted to. -/
theorem entryO_ownerUser {C : Crypto} {enc : Bytes → Bytes → Bytes} {E : EncInfo} {owner : Bytes} (ho : E.o.length = 32) :
    E.o = entryO (ciphers C enc) E owner (ownerUser (ciphers C enc) E owner) := by
  unfold ownerUser entryO
  dsimp only
  by_cases hr : E.r ≥ 3
  · simp only [if_pos hr]
    generalize (times 50 (ciphers C enc).md5 ((ciphers C enc).md5 (padded owner))).take E.n = key
    have ef : (fun x i => (ciphers C enc).rc4 (keyXor key i) x) = chainStep key := by
      funext x i
      unfold chainStep ciphers
      exact rfl
    rw [ef, padded_full (by rw [fold_length]; exact ho)]
    generalize hu : (List.range 20).reverse.foldl (chainStep key) E.o = u
    have e : nineteen (ciphers C enc) key ((ciphers C enc).rc4 key u) = (List.range 20).foldl (chainStep key) u := by
      show nineteen (ciphers C enc) key (rc4 key u) = _
      have : rc4 key u = chainStep key u 0 := by unfold chainStep; rw [keyXor_zero]
      rw [this, ← chain_nineteen (C := C) (enc := enc)]
      have e20 : List.range 20 = 0 :: [1, 2, 3, 4, 5, 6, 7, 8, 9, 10, 11, 12, 13, 14, 15, 16, 17, 18, 19] := by decide
      rw [e20]
      generalize [1, 2, 3, 4, 5, 6, 7, 8, 9, 10, 11, 12, 13, 14, 15, 16, 17, 18, 19] = l
      rw [List.foldl_cons]
    rw [e, ← hu]
    have := chain_inverse key (List.range 20).reverse E.o
    rw [List.reverse_reverse] at this
    exact this.symm
  · simp only [if_neg hr]
    generalize ((ciphers C enc).md5 (padded owner)).take E.n = key
    rw [padded_full (u := (ciphers C enc).rc4 key E.o) (by show (rc4 _ _).length = 32; rw [rc4_length]; exact ho)]
    exact (rc4_twice _ _).symm

/-- What is assumed of the hash functions and of AES. -/
structure Crypto.Good (C : Crypto) (enc : Bytes → Bytes → Bytes) : Prop where
  md5 : ∀ x, (C.md5 x).length = 16
  sha256 : ∀ x, (C.sha256 x).length = 32
  aes : IsAes C enc

theorem unlocks_handler {C : Crypto} {enc : Bytes → Bytes → Bytes} (hC : C.Good enc) {id : Option Obj} {d : List (Bytes × Obj)} {pw key : Bytes}
    (h : Unlocks (ciphers C enc) id d pw key) {password : Text} (hp : utf8 password = .ok pw) :
    ∃ hd, mkHandler C id d password = .ok hd ∧ hd.key = key := by
  cases h with
  | user E h1 h2 => exact C41_user C hC.md5 enc id d E h1 password pw hp h2
  | owner E user h1 h2 h3 h4 => exact C41_owner C hC.md5 enc id d E h1 password pw user hp h2 h3 h4
  | user5 E k1 k2 h1 h2 h3 h4 h5 => exact C70_user C hC.sha256 enc hC.aes id d E h1 password pw hp k1 k2 h2 h3 h4 h5
  | owner5 E k1 k2 h1 h2 h3 h4 => exact C70_owner C hC.sha256 enc hC.aes id d E h1 password pw hp k1 k2 h2 h3 h4

theorem locked_refused {C : Crypto} {enc : Bytes → Bytes → Bytes} (hC : C.Good enc) {id : Option Obj} {d : List (Bytes × Obj)} {pw : Bytes}
    (h : Locked (ciphers C enc) id d pw) {password : Text} (hp : utf8 password = .ok pw) : mkHandler C id d password = .error .valueError := by
  cases h with
  | mk E h1 h2 h3 h4 => exact C69_refused C hC.md5 enc id d E h1 password pw hp h3 (h4 _ (entryO_ownerUser h2))
  | mk5 E h1 h2 h3 => exact C70_refused C id d E h1 password pw hp h2 h3

theorem mem_of_dictGet {k : Bytes} {v : Obj} : ∀ {es : List (Bytes × Obj)}, dictGet es k = some v → (k, v) ∈ es
  | [], h => by cases h
  | (k', v') :: es, h => by
    unfold dictGet at h
    split at h
    · rename_i e
      cases h
      rw [e]
      exact List.mem_cons_self
    · exact List.mem_cons_of_mem _ (mem_of_dictGet h)

theorem filters_names {methods : List Bytes} {d : List (Bytes × Obj)} (h : HasFilters methods d) {f : Bytes} {cf fd : List (Bytes × Obj)} {name : Bytes}
    (h1 : dictGet d b!"CF" = some (.dict cf)) (h2 : dictGet cf f = some (.dict fd)) (h3 : dictGet fd b!"CFM" = some (.name name)) : name ∈ methods := by
  obtain ⟨cf', _, _, e, hf, _⟩ := h
  rw [h1] at e
  cases e
  obtain ⟨fd', m, e1, e2, e3⟩ := hf (f, .dict fd) (mem_of_dictGet h2)
  cases e1
  rw [h3] at e2
  cases e2
  exact e3

/-- The length of the key which AES uses. -/
theorem unlocks_key {C : Crypto} {enc : Bytes → Bytes → Bytes} (hC : C.Good enc) {id : Option Obj} {d : List (Bytes × Obj)} {pw key : Bytes}
    (h : Unlocks (ciphers C enc) id d pw key) : (MethodIs d .aes128 → key.length = 16) ∧ (MethodIs d .aes256 → key.length = 32) := by
  have old : ∀ E, Describes id d E → ∀ u, (MethodIs d .aes128 → (fileKey (ciphers C enc) E u).length = 16) ∧ ¬ MethodIs d .aes256 := by
    intro E hE u
    obtain ⟨_, hv, _, _, _, _, _, h123 | ⟨h4, _, h16, hfl, _⟩⟩ := hE
    · have no : ∀ m, MethodIs d m → m = .rc4 := by
        rintro m ⟨v, e, h⟩
        rw [hv] at e
        cases e
        rcases h with ⟨_, rfl⟩ | ⟨h, _⟩ | ⟨h, _⟩
        · rfl
        · omega
        · omega
      exact ⟨fun h => (by cases no _ h), fun h => (by cases no _ h)⟩
    · refine ⟨fun _ => by rw [fileKey_len (X := ciphers C enc) hC.md5 (by omega), h16], ?_⟩
      rintro ⟨v, e, h⟩
      rcases h with ⟨_, h⟩ | ⟨_, _, h⟩ | ⟨_, f, cf, fd, name, _, _, c1, c2, c3, c4⟩
      · cases h
      · cases h
      · have := filters_names hfl c1 c2 c3
        rcases c4 with ⟨_, h⟩ | ⟨_, h⟩ | ⟨rfl, _⟩
        · cases h
        · cases h
        · exact absurd this (by decide)
  have new : ∀ E, Describes5 id d E → ¬ MethodIs d .aes128 := by
    rintro E ⟨_, hV, _, _, _, _, _, _, hfl, _⟩ ⟨v, e, h⟩
    rcases h with ⟨_, h⟩ | ⟨_, _, h⟩ | ⟨_, f, cf, fd, name, _, _, c1, c2, c3, c4⟩
    · cases h
    · cases h
    · have := filters_names hfl c1 c2 c3
      rcases c4 with ⟨_, h⟩ | ⟨rfl, h⟩ | ⟨_, h⟩
      · cases h
      · exact absurd this (by decide)
      · cases h
  cases h with
  | user E h1 h2 => exact ⟨(old E h1 _).1, fun h => absurd h (old E h1 []).2⟩
  | owner E user h1 h2 h3 h4 => exact ⟨(old E h1 _).1, fun h => absurd h (old E h1 []).2⟩
  | user5 E k1 k2 h1 h2 h3 h4 h5 => exact ⟨fun h => absurd h (new E h1), fun _ => by rw [List.length_append]; omega⟩
  | owner5 E k1 k2 h1 h2 h3 h4 => exact ⟨fun h => absurd h (new E h1), fun _ => by rw [List.length_append]; omega⟩

/-! ### Decryption of what is stored -/

theorem stored_decrypts {C : Crypto} {enc : Bytes → Bytes → Bytes} (hC : C.Good enc) {id : Option Obj} {d : List (Bytes × Obj)} {pw key : Bytes}
    (hun : Unlocks (ciphers C enc) id d pw key) {password : Text} {hd : Handler} (hh : mkHandler C id d password = .ok hd) (hk : hd.key = key)
    {n g : Nat} {o w : Obj} (h : Stored (ciphers C enc) key d n g o w) : decryptIfNecessary C (some hd) n g w = .ok o := by
  have hvs : ∃ v : Int, dictGet d b!"V" = some (.int v) ∧ 1 ≤ v ∧ v ≤ 5 := by
    have old : ∀ E, Describes id d E → ∃ v : Int, dictGet d b!"V" = some (.int v) ∧ 1 ≤ v ∧ v ≤ 5 := by
      rintro E ⟨_, hv, _, _, _, _, _, ⟨h, _⟩ | ⟨h, _⟩⟩
      · exact ⟨_, hv, by omega, by omega⟩
      · exact ⟨_, hv, by omega, by omega⟩
    cases hun with
    | user E h1 h2 => exact old E h1
    | owner E user h1 h2 h3 h4 => exact old E h1
    | user5 E k1 k2 h1 h2 h3 h4 h5 => exact ⟨5, h1.2.1, by omega, by omega⟩
    | owner5 E k1 k2 h1 h2 h3 h4 => exact ⟨5, h1.2.1, by omega, by omega⟩
  obtain ⟨v, hV, hv1, hv2⟩ := hvs
  obtain ⟨k128, k256⟩ := unlocks_key hC hun
  subst hk
  obtain ⟨m1, m2, m3, m4⟩ := C45_method C id d password hd hh v hV
  cases h with
  | other _ h1 h2 h3 =>
    cases o <;> first | rfl | exact absurd rfl (h1 _ _) | exact absurd rfl (h2 _) | exact absurd rfl (h3 _)
  | exempt es data he =>
    obtain ⟨e1, e2, e3⟩ := he
    have h45 : v = 4 ∨ v = 5 := by
      rcases e1 with e | e <;> rw [hV] at e <;> cases e <;> simp
    have hne : ¬ Encrypted hd es := by
      rw [m4 h45 es, e2, e3]
      rintro (h | h)
      · exact h rfl
      · cases h
    unfold Encrypted at hne
    unfold decryptIfNecessary
    dsimp only
    unfold decryptObj
    dsimp only
    rw [if_neg hne]
  | stream es m data raw hcov hm hs hn hg =>
    have henc : Encrypted hd es := by
      by_cases h45 : v = 4 ∨ v = 5
      · rw [m4 h45 es]
        rcases hcov with h | h | h | h | h | h
        · rw [hV] at h; cases h; omega
        · rw [hV] at h; cases h; omega
        · rw [hV] at h; cases h; omega
        · exact Or.inl h
        · rw [h]; exact Or.inr rfl
        · rw [h]; exact Or.inr rfl
      · exact (m1 (by omega)).2 es
    obtain ⟨v', hv', hcase⟩ := (show MethodIs d m from hm)
    rw [hV] at hv'
    cases hv'
    have hmeth : ∃ x : Cfm, StreamMethod hd x ∧ ((m = .rc4 ∧ x = .rc4) ∨ (m = .aes128 ∧ x = .aes128) ∨ (m = .aes256 ∧ x = .aes256) ∨ (m = .identity ∧ x = .identity)) := by
      rcases hcase with ⟨h, rfl⟩ | ⟨h, hi, rfl⟩ | ⟨h, f, cf, fd, name, c1, c2, c3, c4, c5, c6⟩
      · exact ⟨.rc4, (m1 h).1, by simp⟩
      · exact ⟨.identity, m2 h hi, by simp⟩
      · obtain ⟨x, hx, hst⟩ := m3 h f cf fd name c1 c2 c3 c4 c5
        refine ⟨x, hst, ?_⟩
        unfold methodOf at hx
        simp only [List.mem_cons, List.not_mem_nil, or_false, Prod.mk.injEq] at hx
        rcases c6 with ⟨rfl, rfl⟩ | ⟨rfl, rfl⟩ | ⟨rfl, rfl⟩
        · rcases hx with ⟨_, rfl⟩ | ⟨h, _⟩ | ⟨h, _⟩
          · simp
          · exact absurd h (by decide)
          · exact absurd h (by decide)
        · rcases hx with ⟨h, _⟩ | ⟨_, rfl⟩ | ⟨h, _⟩
          · exact absurd h (by decide)
          · simp
          · exact absurd h (by decide)
        · rcases hx with ⟨h, _⟩ | ⟨h, _⟩ | ⟨_, rfl⟩
          · exact absurd h (by decide)
          · exact absurd h (by decide)
          · simp
    obtain ⟨x, hst, hx⟩ := hmeth
    cases hs with
    | rc4 =>
      rcases hx with ⟨_, rfl⟩ | ⟨h, _⟩ | ⟨h, _⟩ | ⟨h, _⟩ <;> first | (cases h; done) | skip
      exact decrypt_stream hst henc (C43_object C hC.md5 enc hd.key n g hn hg data)
    | aes128 _ iv bs h1 h2 h3 =>
      rcases hx with ⟨h, _⟩ | ⟨_, rfl⟩ | ⟨h, _⟩ | ⟨h, _⟩ <;> first | (cases h; done) | skip
      exact decrypt_stream hst henc (by rw [show opened .aes128 data = bs.flatten from h3.symm]; exact C44_object128 C hC.md5 enc hC.aes hd.key (k128 hm) n g hn hg iv h1 bs h2)
    | aes256 _ iv bs h1 h2 h3 =>
      rcases hx with ⟨h, _⟩ | ⟨h, _⟩ | ⟨_, rfl⟩ | ⟨h, _⟩ <;> first | (cases h; done) | skip
      exact decrypt_stream hst henc (by rw [show opened .aes256 data = bs.flatten from h3.symm]; exact C44_object256 C enc hC.aes hd.key (k256 hm) iv h1 bs h2)
    | identity =>
      rcases hx with ⟨h, _⟩ | ⟨h, _⟩ | ⟨h, _⟩ | ⟨_, rfl⟩ <;> first | (cases h; done) | skip
      exact decrypt_stream hst henc rfl

/-! ### The encryption dictionary -/

theorem truthy_dict {d : List (Bytes × Obj)} {k : Bytes} {v : Obj} (h : dictGet d k = some v) : truthy (.dict d) = true := by
  cases d with
  | nil => cases h
  | cons e d => rfl

theorem indText_dict {file : Bytes} {revs : List Revision} {content : Content} {n g : Nat} {d : List (Bytes × Obj)} {t : Bytes}
    (h : ObjText file revs content n g (.dict d) t) : IndText n g (.dict d) t := by
  rcases h with h | ⟨_, _, _, _, _, _, h, _⟩
  · exact h
  · cases h

theorem stored_dict {X : Ciphers} {key : Bytes} {d' : List (Bytes × Obj)} {n g : Nat} {d : List (Bytes × Obj)} {w : Obj}
    (h : Stored X key d' n g (.dict d) w) : w = .dict d := by
  cases h
  rfl

variable {filtered : List (Bytes × Obj) → Bytes → Res Bytes}

/-- Once it is registered, the registry agrees with the document still. -/
theorem note_agreeing {file : Bytes} {k : Nat} {r : Revision} {rs : List Revision} {reg : List (Key × Obj)} {st : St} {X : Ciphers} {key : Bytes} {d : List (Bytes × Obj)}
    {content : Content} (hos : OnlySections reg (r :: rs)) (hst : st.reg = reg)
    (hc : Spec.Holds (fun d raw data => filtered d raw = .ok data) (Stored X key d) file k (r :: rs) content) {en eg : Nat}
    (hd : content en eg = some (.dict d)) : Agreeing (st.note (en, eg) (.dict d)).reg content := by
  subst hst
  have hag := hos.agreeing hc
  intro n g x hx
  cases hr : regGet st.reg (n, g) with
  | some u =>
    rw [regGet_note, hr] at hx
    cases hx
    exact hag n g _ hr
  | none =>
    rw [regGet_note, hr] at hx
    dsimp only at hx
    split at hx
    · rename_i e
      cases e
      cases hx
      exact ⟨fun d raw v e => (by cases e), fun y hy => (by rw [hd] at hy; exact Option.some.inj hy)⟩
    · cases hx

/-- The encryption dictionary is found where the sections say. -/
theorem encrypt_found {file v : Bytes} {k : Nat} {r : Revision} {rs : List Revision} {o : Opened} {X : Ciphers} {key : Bytes} {d : List (Bytes × Obj)}
    {content : Content} (ho : OpenedAs filtered file v k r rs o) (hos : OnlySections o.st.reg (r :: rs)) (hpl : ∀ n g x, o.env.dec n g x = .ok x)
    (hc : Spec.Holds (fun d raw data => filtered d raw = .ok data) (Stored X key d) file k (r :: rs) content) {en eg : Nat}
    (hd : content en eg = some (.dict d)) (hcur : ∃ off, CurrentAt (r :: rs) en eg off) (ht : truthy (.dict d) = true)
    (back : Nat → Nat → M (Option Obj)) (fuel : Nat) (hf : rs.length + 6 ≤ fuel) :
    locateEncrypt o.env back fuel en eg o.st = (.ok (.dict d), o.st.note (en, eg) (.dict d)) := by
  have hag := hos.agreeing hc
  obtain ⟨es, body, tail, _, _, hin⟩ := hc.body
  obtain ⟨off, hcur⟩ := hcur
  unfold locateEncrypt St.note
  cases hr : regGet o.st.reg (en, eg) with
  | some x =>
    have := (hag en eg x hr).2 _ hd
    subst this
    simp only [Option.getD_some]
    rw [if_pos ht]
  | none =>
    simp only [Option.getD_none]
    rw [if_neg (by decide)]
    obtain ⟨off', t, rest, w, defs, hcur', hfile, htext, hst, _⟩ | ⟨hno, _⟩ := hin en eg _ hd
    · have hw := stored_dict hst
      subst hw
      obtain ⟨nx, y, ox, hx, hnx, he⟩ := current_listed ho.sections hcur'
      have hlen : nx.length < o.env.xrefs.length := by rw [hx]; simp
      have hxl : o.env.xrefs.length = rs.length + 1 := by have := (agree_all ho.sections).1; simpa using this
      obtain ⟨f, rfl⟩ : ∃ f, fuel = (f + 2) + 1 + nx.length := ⟨fuel - nx.length - 3, by omega⟩
      rw [hx, byXref_skip _ _ _ _ _ _ _ hnx, byXref, he]
      dsimp only
      rw [if_pos rfl, objectAt_text o.env f off' en eg (.dict d) (.dict d) t rest o.st (indText_dict htext) (by rw [ho.file]; exact hfile) (hpl _ _ _) rfl]
      dsimp only
      rw [St.note_new hr]
      have : regGet (o.st.put (en, eg) (.dict d)).reg (en, eg) = some (.dict d) := by rw [regGet_reg_put, if_pos rfl]
      rw [this]
      dsimp only [Option.getD_some]
      rw [if_pos ht]
    · exfalso
      obtain ⟨newer, q, older, e, _, hq⟩ := hcur
      exact hno q (by rw [e]; simp) off hq

end PdfReader
