/-
  C41-C45, C68-C73: encryption.
-/
import Verif.Lemmas.Security
import Verif.Spec.Codecs

namespace PdfReader

open Spec

/-! ### C41: passwords -/

/-- C41: the user password opens the document, with the file key of algorithm 2. `pw` are the bytes of the password. -/
theorem C41_user (C : Crypto) (hm : ∀ x, (C.md5 x).length = 16) (enc : Bytes → Bytes → Bytes) (id : Option Obj) (d : List (Bytes × Obj)) (E : EncInfo)
    (h : Describes id d E) (password : Text) (pw : Bytes) (hp : utf8 password = .ok pw)
    (hu : UserEntry (ciphers C enc) E (fileKey (ciphers C enc) E pw)) :
    ∃ hd, mkHandler C id d password = .ok hd ∧ hd.key = fileKey (ciphers C enc) E pw := by
  obtain ⟨q, hs, e⟩ := mkHandler_says (C := C) h hp
  refine ⟨⟨q, fileKey (ciphers C enc) E pw⟩, ?_, rfl⟩
  rw [e]
  unfold initHandler authenticate
  rw [hs.sup, if_pos rfl, if_neg hs.kind, (authUser_says hs hm pw).1 hu]

/-- C41: the owner password opens the document with the same key as the user password, unless the owner password happens to be accepted
as a user password itself. -/
theorem C41_owner (C : Crypto) (hm : ∀ x, (C.md5 x).length = 16) (enc : Bytes → Bytes → Bytes) (id : Option Obj) (d : List (Bytes × Obj)) (E : EncInfo)
    (h : Describes id d E) (password : Text) (owner user : Bytes) (hp : utf8 password = .ok owner)
    (ho : E.o = entryO (ciphers C enc) E owner user)
    (hu : UserEntry (ciphers C enc) E (fileKey (ciphers C enc) E user))
    (hacc : ¬ UserEntry (ciphers C enc) E (fileKey (ciphers C enc) E owner)) :
    ∃ hd, mkHandler C id d password = .ok hd ∧ hd.key = fileKey (ciphers C enc) E user := by
  obtain ⟨q, hs, e⟩ := mkHandler_says (C := C) h hp
  refine ⟨⟨q, fileKey (ciphers C enc) E user⟩, ?_, rfl⟩
  rw [e]
  unfold initHandler authenticate
  rw [hs.sup, if_pos rfl, if_neg hs.kind, (authUser_says hs hm owner).2 hacc]
  dsimp only
  rw [authOwner_says (enc := enc) hs hm, ownerUser_entryO ho]
  have := (authUser_says (enc := enc) hs hm (padded user)).1 (by rw [fileKey_padded]; exact hu)
  rw [this, fileKey_padded]

/-- C69: what opens is right: if a handler is created, then its key satisfies the check against U, and it is the file key of the
password given or of the password which the given one decrypts from O. -/
theorem C69_sound (C : Crypto) (hm : ∀ x, (C.md5 x).length = 16) (enc : Bytes → Bytes → Bytes) (id : Option Obj) (d : List (Bytes × Obj)) (E : EncInfo)
    (h : Describes id d E) (password : Text) (pw : Bytes) (hp : utf8 password = .ok pw) (hd : Handler)
    (ho : mkHandler C id d password = .ok hd) :
    UserEntry (ciphers C enc) E hd.key ∧
    (hd.key = fileKey (ciphers C enc) E pw ∨ hd.key = fileKey (ciphers C enc) E (ownerUser (ciphers C enc) E pw)) := by
  obtain ⟨q, hs, e⟩ := mkHandler_says (C := C) h hp
  rw [e] at ho
  unfold initHandler authenticate at ho
  rw [hs.sup, if_pos rfl, if_neg hs.kind] at ho
  by_cases hu : UserEntry (ciphers C enc) E (fileKey (ciphers C enc) E pw)
  · rw [(authUser_says hs hm pw).1 hu] at ho
    injection ho with ho
    subst ho
    exact ⟨hu, Or.inl rfl⟩
  · rw [(authUser_says hs hm pw).2 hu] at ho
    dsimp only at ho
    rw [authOwner_says (enc := enc) hs hm] at ho
    by_cases hu2 : UserEntry (ciphers C enc) E (fileKey (ciphers C enc) E (ownerUser (ciphers C enc) E pw))
    · rw [(authUser_says hs hm _).1 hu2] at ho
      injection ho with ho
      subst ho
      exact ⟨hu2, Or.inr rfl⟩
    · rw [(authUser_says hs hm _).2 hu2] at ho
      cases ho

/-- C69: a password which is neither the user nor the owner password is refused with ValueError. -/
theorem C69_refused (C : Crypto) (hm : ∀ x, (C.md5 x).length = 16) (enc : Bytes → Bytes → Bytes) (id : Option Obj) (d : List (Bytes × Obj)) (E : EncInfo)
    (h : Describes id d E) (password : Text) (pw : Bytes) (hp : utf8 password = .ok pw)
    (hu : ¬ UserEntry (ciphers C enc) E (fileKey (ciphers C enc) E pw))
    (hu2 : ¬ UserEntry (ciphers C enc) E (fileKey (ciphers C enc) E (ownerUser (ciphers C enc) E pw))) :
    mkHandler C id d password = .error .valueError := by
  obtain ⟨q, hs, e⟩ := mkHandler_says (C := C) h hp
  rw [e]
  unfold initHandler authenticate
  rw [hs.sup, if_pos rfl, if_neg hs.kind, (authUser_says hs hm pw).2 hu]
  dsimp only
  rw [authOwner_says (enc := enc) hs hm, (authUser_says hs hm _).2 hu2]

/-- C69: versions other than 1 to 5 are refused with ValueError. -/
theorem C69_version (C : Crypto) (id : Option Obj) (d : List (Bytes × Obj)) (v : Int) (hV : (dictGet d b!"V").getD (.int 0) = .int v) (hv : v < 1 ∨ 5 < v)
    (password : Text) : mkHandler C id d password = .error .valueError := by
  have hq : paramsOf id d = .error .valueError := by
    unfold paramsOf
    rw [hV]
    dsimp only
    rw [if_neg (by omega), if_neg (by omega), if_neg (by omega)]
  unfold mkHandler
  rw [hq]
  cases hp : utf8 password with
  | ok _ => rfl
  | error e =>
    suffices e = .valueError by rw [this]
    clear hV hv
    induction password generalizing e with
    | nil => cases hp
    | cons x t ih =>
      rw [utf8] at hp
      split at hp
      · cases hp
      · injection hp with hp
        exact hp.symm

/-! An example: a toy hash function, revision 3 with a key of 5 bytes. -/

def toyCrypto : Crypto := ⟨fun x => (x ++ List.replicate 16 7).take 16, fun x => (x ++ List.replicate 32 9).take 32, fun _ b => b.reverse⟩

theorem toy_md5 (x : Bytes) : (toyCrypto.md5 x).length = 16 := by
  show ((x ++ List.replicate 16 7).take 16).length = 16
  rw [List.length_take, List.length_append, List.length_replicate]
  omega

def toyEnc : Bytes → Bytes → Bytes := fun _ b => b.reverse

/-- The entry U for a user password, revision 3 or 4. -/
def withU (X : Ciphers) (E : EncInfo) (pw : Bytes) : EncInfo :=
  { E with u := nineteen X (fileKey X E pw) (X.rc4 (fileKey X E pw) (X.md5 (padding ++ E.id))) }

theorem withU_entry (X : Ciphers) (E : EncInfo) (pw : Bytes) (hr : E.r ≠ 2) : UserEntry X (withU X E pw) (fileKey X (withU X E pw) pw) := by
  have e1 : fileKey X (withU X E pw) pw = fileKey X E pw := rfl
  have e2 : (withU X E pw).r = E.r := rfl
  have e3 : (withU X E pw).id = E.id := rfl
  have e4 : (withU X E pw).u = nineteen X (fileKey X E pw) (X.rc4 (fileKey X E pw) (X.md5 (padding ++ E.id))) := rfl
  unfold UserEntry
  rw [e1, e2, e3, e4, if_neg hr]

def toyE : EncInfo :=
  let E0 : EncInfo := ⟨2, 3, 5, -4, [1, 2], [], [], true⟩
  let E1 := { E0 with o := entryO (ciphers toyCrypto toyEnc) E0 b!"owner" b!"user" }
  withU (ciphers toyCrypto toyEnc) E1 b!"user"

def toyDict : List (Bytes × Obj) :=
  [(b!"V", .int 2), (b!"R", .int 3), (b!"P", .int (-4)), (b!"O", .str toyE.o), (b!"U", .str toyE.u), (b!"Length", .int 40)]

def toyId : Option Obj := some (.arr [.hex b!"0102", .hex b!"0102"])

theorem toy_describes : Describes toyId toyDict toyE := by
  refine ⟨⟨b!"0102", [.hex b!"0102"], rfl, ?_⟩, rfl, rfl, rfl, by decide, Or.inl rfl, Or.inl rfl, Or.inl ⟨by decide, rfl, Or.inr ⟨rfl, by decide, by decide, Or.inl rfl⟩⟩⟩
  exact ⟨48, 49, _, rfl, 0, 1, rfl, rfl, rfl, 48, 50, _, rfl, 0, 2, rfl, rfl, rfl, rfl⟩

theorem toy_user : UserEntry (ciphers toyCrypto toyEnc) toyE (fileKey (ciphers toyCrypto toyEnc) toyE b!"user") :=
  withU_entry _ _ _ (by decide)

example : ∃ hd, mkHandler toyCrypto toyId toyDict [117, 115, 101, 114] = .ok hd ∧ hd.key = fileKey (ciphers toyCrypto toyEnc) toyE b!"user" :=
  C41_user toyCrypto toy_md5 toyEnc toyId toyDict toyE toy_describes _ b!"user" rfl toy_user

/-! ### C42: truncation of passwords -/

theorem params_kind {kind : HandlerKind} {id : Option Obj} {d : List (Bytes × Obj)} {q : EncParams}
    (h : baseParams kind id d = .ok q) : q.kind = kind := by
  unfold baseParams at h
  split at h
  · cases h
  · split at h
    · split at h
      · cases h
      · split at h
        · cases h
        · injection h with h
          rw [← h]
    · cases h

theorem v4_kind {kind : HandlerKind} {id : Option Obj} {d : List (Bytes × Obj)} {q : EncParams} (h : v4Params kind id d = .ok q) : q.kind = kind := by
  unfold v4Params at h
  split at h
  · cases h
  · rename_i q' hq
    have := params_kind hq
    repeat' split at h
    all_goals first | cases h; done | skip
    injection h with h
    rw [← h]
    exact this

theorem auth_padded (C : Crypto) (q : EncParams) (hk : q.kind ≠ .v5) {pw1 pw2 : Bytes} (h : padPassword pw1 = padPassword pw2) :
    authenticate C q pw1 = authenticate C q pw2 := by
  have hu : authUser C q pw1 = authUser C q pw2 := by
    unfold authUser computeKey
    rw [h]
  unfold authenticate
  rw [if_neg hk, if_neg hk, hu]
  cases authUser C q pw2 with
  | error e => rfl
  | ok o =>
    cases o with
    | some k => rfl
    | none =>
      dsimp only
      unfold authOwner
      rw [h]

/-- C42: for versions 1 to 4 two passwords whose bytes agree in the first 32 behave alike: the same handler or the same exception. -/
theorem C42_first32 (C : Crypto) (id : Option Obj) (d : List (Bytes × Obj)) (p1 p2 : Text) (pw1 pw2 : Bytes)
    (h1 : utf8 p1 = .ok pw1) (h2 : utf8 p2 = .ok pw2) (h : pw1.take 32 = pw2.take 32) (hV : dictGet d b!"V" ≠ some (.int 5)) :
    mkHandler C id d p1 = mkHandler C id d p2 := by
  have hpad : padPassword pw1 = padPassword pw2 := by
    rw [padded_eq, padded_eq, ← padded_take pw1, h, padded_take]
  have key : ∀ q : EncParams, q.kind ≠ .v5 → initHandler C pw1 q = initHandler C pw2 q := by
    intro q hk
    unfold initHandler
    rw [auth_padded C q hk hpad]
  unfold mkHandler
  rw [h1, h2]
  dsimp only
  cases hq : paramsOf id d with
  | error e => rfl
  | ok q =>
    dsimp only
    refine key q ?_
    unfold paramsOf at hq
    split at hq
    · rename_i v hv
      by_cases c1 : v = 1 ∨ v = 2 ∨ v = 3
      · rw [if_pos c1] at hq
        rw [params_kind hq]
        decide
      · rw [if_neg c1] at hq
        by_cases c4 : v = 4
        · rw [if_pos c4] at hq
          rw [v4_kind hq]
          decide
        · rw [if_neg c4] at hq
          by_cases c5 : v = 5
          · exfalso
            apply hV
            cases hd : dictGet d b!"V" with
            | none =>
              rw [hd] at hv
              injection hv with hv
              omega
            | some o =>
              rw [hd] at hv
              rw [show o = .int v from hv, c5]
          · rw [if_neg c5] at hq
            cases hq
    · cases hq

/-- C42 for version 5: the first 127 bytes. -/
theorem C42_first127 (C : Crypto) (q : EncParams) (hk : q.kind = .v5) (pw1 pw2 : Bytes) (h : pw1.take 127 = pw2.take 127) :
    initHandler C pw1 q = initHandler C pw2 q := by
  unfold initHandler authenticate
  rw [if_pos hk, if_pos hk]
  unfold authV5
  rw [h]

example : utf8 (List.replicate 40 65) = .ok (List.replicate 40 65) ∧ utf8 (List.replicate 32 65 ++ [66]) = .ok (List.replicate 32 65 ++ [66]) ∧
    (List.replicate 40 (65 : Byte)).take 32 = (List.replicate 32 (65 : Byte) ++ [66]).take 32 := by decide

/-! ### C43, C44: ciphers -/

/-- C43: RC4 twice with the same key returns the data; the length stays. -/
theorem C43_rc4 (key data : Bytes) (hk : 1 ≤ key.length ∧ key.length ≤ 256) :
    (arc4 key data).bind (arc4 key) = .ok data ∧ ∀ x, arc4 key data = .ok x → x.length = data.length := by
  rw [arc4_ok hk]
  refine ⟨?_, ?_⟩
  · show arc4 key (rc4 key data) = _
    rw [arc4_ok hk, rc4_twice]
  · intro x hx
    injection hx with hx
    rw [← hx]
    exact rc4_length _ _

/-- The list holds the permutation. -/
def Holds (s : List Byte) (S : Nat → Nat) : Prop := s.length = 256 ∧ ∀ k, k < 256 → (s.getD k 0).toNat = S k

theorem getD_set_byte (s : List Byte) (i k : Nat) (x : Byte) (hi : i < s.length) : (s.set i x).getD k 0 = if k = i then x else s.getD k 0 := by
  simp only [List.getD_eq_getElem?_getD, List.getElem?_set]
  by_cases h : i = k
  · subst h; rw [if_pos rfl, if_pos rfl, if_pos hi]; rfl
  · rw [if_neg h, if_neg (fun e => h e.symm)]

theorem holds_exchange {s : List Byte} {S : Nat → Nat} (h : Holds s S) {i j : Nat} (hi : i < 256) (hj : j < 256) :
    Holds (swapAt s i j) (exchange S i j) := by
  obtain ⟨hl, h⟩ := h
  refine ⟨by unfold swapAt; rw [List.length_set, List.length_set]; exact hl, fun k hk => ?_⟩
  unfold swapAt exchange
  rw [getD_set_byte _ _ _ _ (by rw [List.length_set]; omega), getD_set_byte _ _ _ _ (by omega)]
  by_cases e1 : k = j
  · subst e1
    rw [if_pos rfl, h i hi]
    by_cases e2 : k = i
    · rw [if_pos e2, e2]
    · rw [if_neg e2, if_pos rfl]
  · rw [if_neg e1]
    by_cases e2 : k = i
    · rw [if_pos e2, if_pos e2, h j hj]
    · rw [if_neg e2, if_neg e2, if_neg e1, h k hk]

theorem holds_id : Holds ((List.range 256).map UInt8.ofNat) id := by
  refine ⟨by simp, fun k hk => ?_⟩
  show (((List.range 256).map UInt8.ofNat).getD k 0).toNat = k
  rw [List.getD_eq_getElem?_getD, List.getElem?_map, List.getElem?_range hk]
  show (UInt8.ofNat k).toNat = k
  rw [UInt8.toNat_ofNat']
  omega

theorem holds_init (key : Bytes) (s0 : List Byte) (h0 : Holds s0 id) : ∀ n, n ≤ 256 →
    Holds ((List.range n).foldl (rc4KeyStep key) (s0, 0)).1 (scheduled key n).1 ∧
    ((List.range n).foldl (rc4KeyStep key) (s0, 0)).2 = (scheduled key n).2
  | 0, _ => ⟨h0, rfl⟩
  | n + 1, hn => by
    obtain ⟨h1, h2⟩ := holds_init key s0 h0 n (by omega)
    rw [List.range_succ, List.foldl_append]
    generalize (List.range n).foldl (rc4KeyStep key) (s0, 0) = st at h1 h2
    have hj : (st.2 + (st.1.getD n 0).toNat + (key.getD (n % key.length) 0).toNat) % 256 = (scheduled key (n + 1)).2 := by
      rw [h1.2 n (by omega), h2]; rfl
    refine ⟨?_, hj⟩
    show Holds (swapAt st.1 n _) (exchange (scheduled key n).1 n (scheduled key (n + 1)).2)
    rw [hj]
    exact holds_exchange h1 (by omega) (Nat.mod_lt _ (by omega))

theorem holds_at {s : List Byte} {S : Nat → Nat} (h : Holds s S) {i j : Nat} (hi : i < 256) (hj : j < 256) :
    s.getD (((s.getD i 0).toNat + (s.getD j 0).toNat) % 256) 0 = UInt8.ofNat (S ((S i + S j) % 256)) := by
  rw [h.2 i hi, h.2 j hj, ← h.2 ((S i + S j) % 256) (Nat.mod_lt _ (by omega)), UInt8.ofNat_toNat]

theorem generated_lt (key : Bytes) (n : Nat) : (generated key (n + 1)).2 < 256 := Nat.mod_lt _ (by omega)

theorem generated_succ (key : Bytes) (n : Nat) : generated key (n + 1) =
    (exchange (generated key n).1 ((n + 1) % 256) (((generated key n).2 + (generated key n).1 ((n + 1) % 256)) % 256),
     ((generated key n).2 + (generated key n).1 ((n + 1) % 256)) % 256) := rfl

theorem loop_generated (key : Bytes) : ∀ (data : Bytes) (s : List Byte) (n : Nat), Holds s (generated key n).1 →
    rc4Loop data s (n % 256) (generated key n).2 = data.mapIdx fun k x => x ^^^ keyStream key (n + k)
  | [], _, _, _ => rfl
  | x :: data, s, n, h => by
    have hi : (n % 256 + 1) % 256 = (n + 1) % 256 := by omega
    have hj : ((generated key n).2 + (s.getD ((n + 1) % 256) 0).toNat) % 256 = (generated key (n + 1)).2 := by
      rw [h.2 _ (Nat.mod_lt _ (by omega)), generated_succ]
    have hs : Holds (swapAt s ((n + 1) % 256) (generated key (n + 1)).2) (generated key (n + 1)).1 := by
      rw [generated_succ]
      exact holds_exchange h (Nat.mod_lt _ (by omega)) (Nat.mod_lt _ (by omega))
    unfold rc4Loop
    dsimp only
    rw [hi, hj, loop_generated key data _ _ hs, List.mapIdx_cons, holds_at hs (Nat.mod_lt _ (by omega)) (generated_lt key n)]
    have e : keyStream key (n + 0) = UInt8.ofNat ((generated key (n + 1)).1
      (((generated key (n + 1)).1 ((n + 1) % 256) + (generated key (n + 1)).1 (generated key (n + 1)).2) % 256)) := rfl
    rw [e]
    have e2 : (fun k x => x ^^^ keyStream key (n + 1 + k)) = fun k x => x ^^^ keyStream key (n + (k + 1)) := by
      funext k y
      rw [show n + 1 + k = n + (k + 1) by omega]
    rw [e2]

/-- C43: the cipher is RC4: the data are xored with its key stream. -/
theorem C43_standard (key data : Bytes) (hk : 1 ≤ key.length ∧ key.length ≤ 256) :
    arc4 key data = .ok (data.mapIdx fun n x => x ^^^ keyStream key n) := by
  rw [arc4_ok hk]
  have h0 : Holds (rc4Init key) (generated key 0).1 := by
    have e : ∀ N, N ≤ 256 → Holds ((List.range N).foldl (rc4KeyStep key) ((List.range 256).map UInt8.ofNat, 0)).1 (scheduled key N).1 :=
      fun N hN => (holds_init key _ holds_id N hN).1
    rw [generated, rc4Init]
    dsimp only
    exact e 256 (Nat.le_refl _)
  have h := loop_generated key data (rc4Init key) 0 h0
  have e : (fun k x => x ^^^ keyStream key (0 + k)) = fun k x => x ^^^ keyStream key k := by
    funext k x
    rw [Nat.zero_add]
  rw [e] at h
  exact congrArg Except.ok h

set_option maxRecDepth 20000 in
/-- A published test vector. -/
example : arc4 b!"Key" b!"Plaintext" = .ok [0xBB, 0xF3, 0x16, 0xE8, 0xD9, 0x40, 0xAF, 0x0A, 0xD3] := by decide +kernel

/-- C43: data encrypted by algorithm 1 for an object decrypts to itself, for keys of 5 to 16 bytes. -/
theorem C43_object (C : Crypto) (hm : ∀ x, (C.md5 x).length = 16) (enc : Bytes → Bytes → Bytes) (key : Bytes) (num gen : Nat) (hn : num < 4294967296)
    (hg : gen < 4294967296) (data : Bytes) :
    decryptRc4 C key num gen (rc4 (objectKey (ciphers C enc) key false num gen) data) = .ok data := by
  unfold decryptRc4 packU
  rw [if_pos hn, if_pos hg]
  dsimp only
  rw [packLE_eq, packLE_eq]
  have e : (C.md5 (key ++ (le 4 num).take 3 ++ (le 4 gen).take 2)).take (min (key ++ (le 4 num).take 3 ++ (le 4 gen).take 2).length 16) =
      objectKey (ciphers C enc) key false num gen := by
    unfold objectKey
    have h1 : (le 4 num).take 3 = le 3 num := rfl
    have h2 : (le 4 gen).take 2 = le 2 gen := rfl
    rw [h1, h2]
    have hl : (key ++ le 3 num ++ le 2 gen).length = key.length + 5 := by
      rw [List.length_append, List.length_append]
      rfl
    rw [hl]
    simp [ciphers]
  rw [e]
  rw [arc4_ok, rc4_twice]
  unfold objectKey
  dsimp only
  rw [List.length_take]
  show 1 ≤ min (min (key.length + 5) 16) (C.md5 _).length ∧ min (min (key.length + 5) 16) (C.md5 _).length ≤ 256
  rw [hm]
  omega

/-- C44: CBC decryption inverts CBC encryption, for every block cipher, initialization vector and list of blocks. -/
theorem C44_cbc (enc dec : Bytes → Bytes) (hlen : ∀ b, b.length = 16 → (enc b).length = 16) (hinv : ∀ b, b.length = 16 → dec (enc b) = b)
    (iv : Bytes) (hiv : iv.length = 16) (bs : List Bytes) (hb : ∀ b ∈ bs, b.length = 16) :
    cbcDecrypt dec iv (cbcEncrypt enc iv bs) = bs.flatten := cbc_inverse hlen hinv bs iv hiv hb

/-- AES: encryption and decryption of blocks with a key. -/
def IsAes (C : Crypto) (enc : Bytes → Bytes → Bytes) : Prop :=
  ∀ key b, b.length = 16 → (enc key b).length = 16 ∧ C.aesDec key (enc key b) = b

theorem aesCbc_ok {C : Crypto} {enc : Bytes → Bytes → Bytes} (ha : IsAes C enc) {key iv : Bytes} (hk : key.length = 16 ∨ key.length = 24 ∨ key.length = 32)
    (hiv : iv.length = 16) {bs : List Bytes} (hb : ∀ b ∈ bs, b.length = 16) : aesCbc C key iv (cbcEncrypt (enc key) iv bs) = .ok bs.flatten := by
  unfold aesCbc
  rw [if_pos ⟨hk, hiv, by rw [cbc_length (fun b hb => (ha key b hb).1) bs iv hiv hb]; omega⟩,
    cbc_inverse (fun b hb => (ha key b hb).1) (fun b hb => (ha key b hb).2) bs iv hiv hb]

/-- C44 for objects of version 4: data made by algorithm 1 with AES (initialization vector, then the blocks). -/
theorem C44_object128 (C : Crypto) (hm : ∀ x, (C.md5 x).length = 16) (enc : Bytes → Bytes → Bytes) (ha : IsAes C enc) (key : Bytes) (hk : key.length = 16)
    (num gen : Nat) (hn : num < 4294967296) (hg : gen < 4294967296) (iv : Bytes) (hiv : iv.length = 16) (bs : List Bytes) (hb : ∀ b ∈ bs, b.length = 16) :
    decryptAes128 C key num gen (iv ++ cbcEncrypt (enc (objectKey (ciphers C enc) key true num gen)) iv bs) = .ok bs.flatten := by
  unfold decryptAes128 packU
  rw [if_pos hn, if_pos hg]
  dsimp only
  rw [packLE_eq, packLE_eq, ← hiv, List.take_left, List.drop_left, hiv]
  have e : (C.md5 (key ++ (le 4 num).take 3 ++ (le 4 gen).take 2 ++ b!"sAlT")).take (min (key ++ (le 4 num).take 3 ++ (le 4 gen).take 2 ++ b!"sAlT").length 16) =
      objectKey (ciphers C enc) key true num gen := by
    unfold objectKey
    have h1 : (le 4 num).take 3 = le 3 num := rfl
    have h2 : (le 4 gen).take 2 = le 2 gen := rfl
    rw [h1, h2]
    have hl : (key ++ le 3 num ++ le 2 gen ++ b!"sAlT").length = 25 := by
      rw [List.length_append, List.length_append, List.length_append, hk]
      rfl
    rw [hl, hk]
    simp only [ciphers, if_true, List.append_assoc]
    rfl
  rw [e]
  refine aesCbc_ok ha (Or.inl ?_) hiv hb
  unfold objectKey
  dsimp only
  rw [List.length_take, hk]
  show min 16 (C.md5 _).length = 16
  rw [hm]
  rfl

/-- C44 for objects of version 5. -/
theorem C44_object256 (C : Crypto) (enc : Bytes → Bytes → Bytes) (ha : IsAes C enc) (key : Bytes) (hk : key.length = 32)
    (iv : Bytes) (hiv : iv.length = 16) (bs : List Bytes) (hb : ∀ b ∈ bs, b.length = 16) :
    decryptAes256 C key (iv ++ cbcEncrypt (enc key) iv bs) = .ok bs.flatten := by
  unfold decryptAes256
  rw [← hiv, List.take_left, List.drop_left]
  exact aesCbc_ok ha (Or.inr (Or.inr hk)) hiv hb



end PdfReader
