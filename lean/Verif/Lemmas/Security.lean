/-
  Encryption.
-/
import Verif.Model.Security
import Verif.Spec.Security
import Verif.Lemmas.Basic

namespace PdfReader

open Spec

/-! ### RC4 -/

theorem xor_twice (a b : Byte) : (a ^^^ b) ^^^ b = a := by
  rw [UInt8.xor_assoc, UInt8.xor_self, UInt8.xor_zero]

theorem rc4Loop_len (data : Bytes) : ∀ s i j, (rc4Loop data s i j).length = data.length := by
  induction data with
  | nil => intros; rfl
  | cons x data ih =>
    intro s i j
    rw [rc4Loop]
    simp only [List.length_cons]
    rw [ih]

theorem rc4Loop_twice (data : Bytes) : ∀ s i j, rc4Loop (rc4Loop data s i j) s i j = data := by
  induction data with
  | nil => intros; rfl
  | cons x data ih =>
    intro s i j
    rw [rc4Loop, rc4Loop, ih, xor_twice]

theorem rc4_twice (key data : Bytes) : rc4 key (rc4 key data) = data := rc4Loop_twice data _ _ _

theorem rc4_length (key data : Bytes) : (rc4 key data).length = data.length := rc4Loop_len data _ _ _

theorem arc4_ok {key : Bytes} (h : 1 ≤ key.length ∧ key.length ≤ 256) (data : Bytes) : arc4 key data = .ok (rc4 key data) := if_pos h

/-- One pass of the chain. -/
def chainStep (key : Bytes) (x : Bytes) (i : Nat) : Bytes := rc4 (keyXor key i) x

theorem chain_ok {key : Bytes} (h : 1 ≤ key.length ∧ key.length ≤ 256) (is : List Nat) : ∀ x, arc4Chain key is x = .ok (is.foldl (chainStep key) x) := by
  induction is with
  | nil => intro x; rfl
  | cons i is ih =>
    intro x
    rw [arc4Chain, arc4_ok (by rw [List.length_map]; exact h)]
    exact ih _

theorem chain_inverse (key : Bytes) (is : List Nat) : ∀ x, is.reverse.foldl (chainStep key) (is.foldl (chainStep key) x) = x := by
  induction is with
  | nil => intro x; rfl
  | cons i is ih =>
    intro x
    rw [List.reverse_cons, List.foldl_append]
    show chainStep key (is.reverse.foldl (chainStep key) (is.foldl (chainStep key) (chainStep key x i))) i = x
    rw [ih]
    exact rc4_twice _ _

theorem keyXor_zero (key : Bytes) : keyXor key 0 = key := by
  unfold keyXor
  have : (fun x : Byte => x ^^^ UInt8.ofNat 0) = id := by
    funext x
    exact UInt8.xor_zero
  rw [this, List.map_id]

/-! ### CBC -/

theorem zip_twice (a b : Bytes) (h : a.length = b.length) : List.zipWith (· ^^^ ·) (List.zipWith (· ^^^ ·) a b) b = a := by
  induction a generalizing b with
  | nil => rfl
  | cons x a ih =>
    cases b with
    | nil => cases h
    | cons y b =>
      rw [List.zipWith_cons_cons, List.zipWith_cons_cons, xor_twice, ih b (by simpa using h)]

/-- CBC decryption inverts CBC encryption, for every block cipher. -/
theorem cbc_inverse {enc dec : Bytes → Bytes} (hlen : ∀ b, b.length = 16 → (enc b).length = 16) (hinv : ∀ b, b.length = 16 → dec (enc b) = b)
    (bs : List Bytes) : ∀ iv, iv.length = 16 → (∀ b ∈ bs, b.length = 16) → cbcDecrypt dec iv (cbcEncrypt enc iv bs) = bs.flatten := by
  induction bs with
  | nil =>
    intro iv _ _
    rw [cbcEncrypt, cbcDecrypt, dif_pos rfl]
    rfl
  | cons b bs ih =>
    intro iv hiv hb
    have hb0 := hb b List.mem_cons_self
    have hx : (List.zipWith (· ^^^ ·) b iv).length = 16 := by rw [List.length_zipWith, hb0, hiv]; rfl
    have hc := hlen _ hx
    rw [cbcEncrypt]
    generalize hce : enc (List.zipWith (· ^^^ ·) b iv) = c at hc
    have hne : c ++ cbcEncrypt enc c bs ≠ [] := by
      intro e
      rw [List.append_eq_nil_iff] at e
      rw [e.1] at hc
      cases hc
    have ht : (c ++ cbcEncrypt enc c bs).take 16 = c := by rw [← hc, List.take_left]
    have hd : (c ++ cbcEncrypt enc c bs).drop 16 = cbcEncrypt enc c bs := by rw [← hc, List.drop_left]
    rw [cbcDecrypt, dif_neg hne, ht, hd, ih c hc (fun x hx => hb x (List.mem_cons_of_mem _ hx))]
    rw [← hce, hinv _ hx]
    unfold xorBytes
    rw [zip_twice b iv (by rw [hb0, hiv])]
    rfl

theorem cbc_length {enc : Bytes → Bytes} (hlen : ∀ b, b.length = 16 → (enc b).length = 16) (bs : List Bytes) : ∀ iv, iv.length = 16 →
    (∀ b ∈ bs, b.length = 16) → (cbcEncrypt enc iv bs).length = 16 * bs.length := by
  induction bs with
  | nil => intros; rfl
  | cons b bs ih =>
    intro iv hiv hb
    have hx : (List.zipWith (· ^^^ ·) b iv).length = 16 := by rw [List.length_zipWith, hb b List.mem_cons_self, hiv]; rfl
    rw [cbcEncrypt]
    rw [List.length_append, hlen _ hx, ih _ (hlen _ hx) (fun x hx => hb x (List.mem_cons_of_mem _ hx)), List.length_cons]
    omega

/-! ### Reading the dictionary -/

theorem hexOf_fromHex {b : Bytes} : ∀ {h : Bytes}, HexOf h b → fromHex h = .ok b := by
  induction b with
  | nil =>
    intro h e
    unfold HexOf at e
    subst e
    rfl
  | cons c b ih =>
    intro h e
    unfold HexOf at e
    obtain ⟨x, y, r, rfl, v, w, hv, hw, hc, hr⟩ := e
    have := ih hr
    unfold fromHex at this ⊢
    rw [fallbackHex.ahxBytes, hv, hw, this]
    dsimp only
    rw [← hc]
    simp

theorem entryBytes_ok {d : List (Bytes × Obj)} {k b : Bytes} (h : IsString (dictGet d k) b) : entryBytes d k = .ok b := by
  unfold entryBytes
  rcases h with h | ⟨x, h, hx⟩
  · rw [h]
  · rw [h]
    exact hexOf_fromHex hx

theorem padded_eq (pw : Bytes) : padPassword pw = padded pw := by
  unfold padPassword padded
  rw [List.take_append]
  rfl

theorem padded_length (pw : Bytes) : (padded pw).length = 32 := by
  unfold padded
  rw [List.length_append, List.length_take, List.length_take]
  have : padding.length = 32 := rfl
  omega

theorem padded_twice (pw : Bytes) : padded (padded pw) = padded pw := by
  have h := padded_length pw
  show (padded pw).take 32 ++ padding.take (32 - (padded pw).length) = padded pw
  rw [h, Nat.sub_self, List.take_zero, List.append_nil, List.take_of_length_le (by omega)]

theorem padded_take (pw : Bytes) : padded (pw.take 32) = padded pw := by
  unfold padded
  rw [List.take_take, Nat.min_self, List.length_take]
  by_cases h : pw.length ≤ 32
  · rw [Nat.min_eq_right h]
  · rw [Nat.min_eq_left (by omega)]
    congr 2
    omega

theorem packLE_eq (n : Nat) : packLE n = le 4 n := by
  unfold packLE
  simp only [le]
  rw [Nat.div_div_eq_div_mul, Nat.div_div_eq_div_mul]

theorem packP_ok {p : Int} (h : -2147483648 ≤ p ∧ p < 2147483648) : packP (.int p) = .ok (le 4 (unsigned32 p)) := by
  unfold packP
  dsimp only
  rw [if_pos h, packLE_eq]
  rfl

theorem iter_succ {α : Type} (f : α → α) (n : Nat) : ∀ x, iter f (n + 1) x = f (iter f n x) := by
  induction n with
  | zero => intro x; rfl
  | succ n ih => intro x; rw [iter, ih]; rfl

theorem iter_times {α : Type} (f : α → α) (n : Nat) (x : α) : iter f n x = times n f x := by
  induction n with
  | zero => rfl
  | succ n ih => rw [iter_succ, ih]; rfl

theorem sliceTo_nat (b : Bytes) (n : Nat) : sliceTo b (n : Int) = b.take n := by
  unfold sliceTo
  rw [if_pos (by omega)]
  rfl

/-- The ciphers of the model. -/
def ciphers (C : Crypto) (aesEnc : Bytes → Bytes → Bytes) : Ciphers := ⟨C.md5, C.sha256, rc4, aesEnc⟩

/-- Parameters which say `E`. -/
structure Says (q : EncParams) (E : EncInfo) : Prop where
  kind : q.kind ≠ .v5
  sup : supported q.kind q.r = true
  r : q.r = .int E.r
  rs : E.r = 2 ∨ E.r = 3 ∨ E.r = 4
  p : q.p = .int E.p
  pr : -2147483648 ≤ E.p ∧ E.p < 2147483648
  o : q.o = E.o
  u : q.u = E.u
  docid : q.docid = E.id
  meta' : q.encryptMetadata = E.metadata
  n5 : E.r = 2 → E.n = 5
  n : 5 ≤ E.n ∧ E.n ≤ 16
  len : 3 ≤ E.r → keyLength q = .ok (E.n : Int)

theorem says_rev {q : EncParams} {E : EncInfo} (h : Says q E) : revision q = E.r := by unfold revision; rw [h.r]

theorem iterLen {f : Bytes → Bytes} (hf : ∀ x, (f x).length = 16) (n : Nat) : ∀ {x : Bytes}, x.length = 16 → (times n f x).length = 16 := by
  induction n with
  | zero => intro x h; exact h
  | succ n _ => intro x _; exact hf _

theorem fileKey_len {X : Ciphers} (hX : ∀ x, (X.md5 x).length = 16) {E : EncInfo} (h : E.n ≤ 16) (pw : Bytes) : (fileKey X E pw).length = E.n := by
  unfold fileKey
  dsimp only
  rw [List.length_take]
  split
  · rw [iterLen (fun x => hX _) 50 (hX _)]
    omega
  · rw [hX]
    omega

theorem computeKey_says {C : Crypto} {enc : Bytes → Bytes → Bytes} {q : EncParams} {E : EncInfo} (h : Says q E) (pw : Bytes) :
    computeKey C q pw = .ok (fileKey (ciphers C enc) E pw) := by
  unfold computeKey fileKey
  rw [h.p, packP_ok h.pr]
  dsimp only
  rw [says_rev h, padded_eq, h.o, h.docid, h.meta']
  simp only [List.append_assoc]
  by_cases hr : E.r ≥ 3
  · rw [if_pos hr, if_pos hr, h.len hr]
    dsimp only
    rw [sliceTo_nat, iter_times]
    simp only [sliceTo_nat]
    rfl
  · rw [if_neg hr, if_neg hr]
    have : E.r = 2 := by rcases h.rs with e | e | e <;> omega
    rw [h.n5 this]
    show Except.ok (sliceTo _ ((5 : Nat) : Int)) = _
    rw [sliceTo_nat]
    rfl

theorem chain_nineteen {C : Crypto} {enc : Bytes → Bytes → Bytes} (key x : Bytes) :
    [1, 2, 3, 4, 5, 6, 7, 8, 9, 10, 11, 12, 13, 14, 15, 16, 17, 18, 19].foldl (chainStep key) x = nineteen (ciphers C enc) key x := by
  unfold nineteen
  have e : (List.range 19).map (· + 1) = [1, 2, 3, 4, 5, 6, 7, 8, 9, 10, 11, 12, 13, 14, 15, 16, 17, 18, 19] := by decide
  rw [e]
  rfl

theorem verify_says {C : Crypto} {enc : Bytes → Bytes → Bytes} {q : EncParams} {E : EncInfo} (h : Says q E) {key : Bytes}
    (hk : 1 ≤ key.length ∧ key.length ≤ 256) (hm : ∀ x, (C.md5 x).length = 16) :
    ∃ b, verifyKey C q key = .ok b ∧ (b = true ↔ UserEntry (ciphers C enc) E key) := by
  unfold verifyKey computeU UserEntry
  rw [says_rev h]
  by_cases hr : E.r = 2
  · rw [if_pos hr, arc4_ok hk]
    dsimp only
    refine ⟨_, rfl, ?_⟩
    rw [if_pos hr, if_pos hr, h.u, beq_iff_eq]
    exact eq_comm
  · rw [if_neg hr, arc4_ok hk]
    dsimp only
    rw [chain_ok hk, chain_nineteen (C := C) (enc := enc)]
    dsimp only
    refine ⟨_, rfl, ?_⟩
    rw [if_neg hr, if_neg hr, h.u, h.docid, beq_iff_eq]
    have hlen : (nineteen (ciphers C enc) key (rc4 key (C.md5 (passwordPadding ++ E.id)))).length = 16 := by
      rw [← chain_nineteen]
      have : ∀ (is : List Nat) x, (is.foldl (chainStep key) x).length = x.length := by
        intro is
        induction is with
        | nil => intro x; rfl
        | cons i is ih => intro x; rw [List.foldl_cons, ih]; exact rc4_length _ _
      rw [this, rc4_length, hm]
    rw [List.take_append_of_le_length (by omega)]
    exact eq_comm

theorem authUser_says {C : Crypto} {enc : Bytes → Bytes → Bytes} {q : EncParams} {E : EncInfo} (h : Says q E) (hm : ∀ x, (C.md5 x).length = 16) (pw : Bytes) :
    (UserEntry (ciphers C enc) E (fileKey (ciphers C enc) E pw) → authUser C q pw = .ok (some (fileKey (ciphers C enc) E pw))) ∧
    (¬ UserEntry (ciphers C enc) E (fileKey (ciphers C enc) E pw) → authUser C q pw = .ok none) := by
  have hl : (fileKey (ciphers C enc) E pw).length = E.n := fileKey_len hm h.n.2 pw
  obtain ⟨b, h1, h2⟩ := verify_says (enc := enc) h (key := fileKey (ciphers C enc) E pw) (by rw [hl]; have := h.n; omega) hm
  unfold authUser
  rw [computeKey_says (enc := enc) h]
  dsimp only
  rw [h1]
  dsimp only
  constructor
  · intro hu
    rw [if_pos (h2.mpr hu)]
  · intro hu
    rw [if_neg (fun e => hu (h2.mp e))]

/-- The user password which the owner password decrypts from O. -/
def ownerUser (X : Ciphers) (E : EncInfo) (owner : Bytes) : Bytes :=
  let h := X.md5 (padded owner)
  let key := (if E.r ≥ 3 then times 50 X.md5 h else h).take E.n
  if E.r ≥ 3 then ((List.range 20).reverse).foldl (fun x i => X.rc4 (keyXor key i) x) E.o else X.rc4 key E.o

theorem authOwner_says {C : Crypto} {enc : Bytes → Bytes → Bytes} {q : EncParams} {E : EncInfo} (h : Says q E) (hm : ∀ x, (C.md5 x).length = 16) (pw : Bytes) :
    authOwner C q pw = authUser C q (ownerUser (ciphers C enc) E pw) := by
  have e20 : (List.range 20).reverse = [19, 18, 17, 16, 15, 14, 13, 12, 11, 10, 9, 8, 7, 6, 5, 4, 3, 2, 1, 0] := by decide
  unfold authOwner ownerUser
  rw [says_rev h, padded_eq, h.o, e20]
  dsimp only [ciphers]
  by_cases hr : E.r ≥ 3
  · rw [if_pos hr, if_pos hr, if_pos hr, h.len hr]
    dsimp only
    rw [sliceTo_nat, iter_times]
    have hk : 1 ≤ ((times 50 C.md5 (C.md5 (padded pw))).take E.n).length ∧ ((times 50 C.md5 (C.md5 (padded pw))).take E.n).length ≤ 256 := by
      rw [List.length_take, iterLen (fun x => hm _) 50 (hm _)]
      have := h.n
      omega
    rw [chain_ok hk]
    dsimp only
    have ef : (chainStep ((times 50 C.md5 (C.md5 (padded pw))).take E.n)) =
        fun x i => rc4 (keyXor ((times 50 C.md5 (C.md5 (padded pw))).take E.n) i) x := by
      funext x i
      unfold chainStep
      exact rfl
    rw [ef]
  · rw [if_neg hr, if_neg hr, if_neg hr]
    have e2 : E.r = 2 := by rcases h.rs with e | e | e <;> omega
    have e5 : sliceTo (C.md5 (padded pw)) 5 = (C.md5 (padded pw)).take E.n := by
      rw [h.n5 e2]
      exact sliceTo_nat _ 5
    rw [e5]
    have hk : 1 ≤ ((C.md5 (padded pw)).take E.n).length ∧ ((C.md5 (padded pw)).take E.n).length ≤ 256 := by
      rw [List.length_take, hm]
      have := h.n
      omega
    rw [arc4_ok hk]

/-- Decrypting O, as algorithm 3 makes it, gives the padded user password. -/
theorem ownerUser_entryO {C : Crypto} {enc : Bytes → Bytes → Bytes} {E : EncInfo} {owner user : Bytes} (ho : E.o = entryO (ciphers C enc) E owner user) :
    ownerUser (ciphers C enc) E owner = padded user := by
  unfold ownerUser
  rw [ho]
  unfold entryO
  dsimp only
  by_cases hr : E.r ≥ 3
  · simp only [if_pos hr]
    generalize hkey : (times 50 (ciphers C enc).md5 ((ciphers C enc).md5 (padded owner))).take E.n = key
    have e : nineteen (ciphers C enc) key ((ciphers C enc).rc4 key (padded user)) = (List.range 20).foldl (chainStep key) (padded user) := by
      show nineteen (ciphers C enc) key (rc4 key (padded user)) = _
      have : rc4 key (padded user) = chainStep key (padded user) 0 := by unfold chainStep; rw [keyXor_zero]
      rw [this, ← chain_nineteen (C := C) (enc := enc)]
      have e20 : List.range 20 = 0 :: [1, 2, 3, 4, 5, 6, 7, 8, 9, 10, 11, 12, 13, 14, 15, 16, 17, 18, 19] := by decide
      rw [e20]
      generalize [1, 2, 3, 4, 5, 6, 7, 8, 9, 10, 11, 12, 13, 14, 15, 16, 17, 18, 19] = l
      rw [List.foldl_cons]
    rw [e]
    have ef : (fun x i => (ciphers C enc).rc4 (keyXor key i) x) = chainStep key := by
      funext x i
      unfold chainStep ciphers
      exact rfl
    rw [ef]
    exact chain_inverse key (List.range 20) (padded user)
  · simp only [if_neg hr]
    exact rc4_twice _ _

theorem fileKey_padded (X : Ciphers) (E : EncInfo) (pw : Bytes) : fileKey X E (padded pw) = fileKey X E pw := by
  unfold fileKey
  rw [padded_twice]

/-! ### Opening -/

theorem assoc_map_some {κ ν : Type} [DecidableEq κ] {k : κ} {l : List (κ × ν)} (h : k ∈ l.map (·.1)) : (assoc k l).isSome = true := by
  induction l with
  | nil => cases h
  | cons e es ih =>
    rw [List.map_cons, List.mem_cons] at h
    unfold assoc
    by_cases he : e.1 = k
    · rw [if_pos he]; rfl
    · rw [if_neg he]
      rcases h with h | h
      · exact absurd h.symm he
      · exact ih h

theorem cfLoop_ok {kind : HandlerKind} {methods : List Bytes} (hk : ∀ m ∈ methods, (getCfm kind (.name m)).isSome = true) {cf : List (Bytes × Obj)}
    (h : CryptFilters methods cf) : ∃ fs, cfLoop kind cf = .ok fs ∧ fs.map (·.1) = cf.map (·.1) := by
  induction cf with
  | nil => exact ⟨[], rfl, rfl⟩
  | cons e cf ih =>
    obtain ⟨fd, m, h1, h2, h3⟩ := h e List.mem_cons_self
    obtain ⟨fs, i1, i2⟩ := ih (fun x hx => h x (List.mem_cons_of_mem _ hx))
    obtain ⟨n, v⟩ := e
    dsimp only at h1
    subst h1
    obtain ⟨f, hf⟩ := Option.isSome_iff_exists.mp (hk m h3)
    refine ⟨(n, f) :: fs, ?_, by rw [List.map_cons, List.map_cons, i2]⟩
    rw [cfLoop, h2]
    dsimp only
    rw [hf]
    dsimp only
    rw [i1]

theorem v4Params_ok {kind : HandlerKind} {methods : List Bytes} (hk : ∀ m ∈ methods, (getCfm kind (.name m)).isSome = true) {id : Option Obj}
    {d : List (Bytes × Obj)} {q : EncParams} (hb : baseParams kind id d = .ok q) (hf : HasFilters methods d) :
    ∃ cfm stmf strf, v4Params kind id d =
      .ok { q with length := .int 128, encryptMetadata := encryptsMetadata (dictGet d b!"EncryptMetadata"), cfm := cfm, stmf := stmf, strf := strf } := by
  obtain ⟨cf, stmf, strf, h1, h2, h3, h4, h5, h6⟩ := hf
  obtain ⟨fs, i1, i2⟩ := cfLoop_ok hk h2
  refine ⟨fs, stmf, strf, ?_⟩
  have hget : ∀ x, (x = b!"Identity" ∨ x ∈ cf.map (·.1)) → (cfmGet fs x).isNone = false := by
    intro x hx
    unfold cfmGet
    by_cases e : x = b!"Identity"
    · rw [if_pos e]; rfl
    · rw [if_neg e]
      rcases hx with hx | hx
      · exact absurd hx e
      · rw [← i2] at hx
        have := assoc_map_some hx
        cases ha : assoc x fs with
        | none => rw [ha] at this; cases this
        | some _ => rfl
  unfold v4Params
  rw [hb, h3, h4, h1]
  dsimp only
  rw [i1]
  dsimp only
  rw [if_neg]
  rw [hget _ h5, hget _ h6]
  simp

theorem mkHandler_says {C : Crypto} {id : Option Obj} {d : List (Bytes × Obj)} {E : EncInfo} (h : Describes id d E) {password : Text} {pw : Bytes}
    (hp : utf8 password = .ok pw) : ∃ q, Says q E ∧ mkHandler C id d password = initHandler C pw q := by
  obtain ⟨⟨hx, rest, h1, h2⟩, hV, hR, hP, hpr, hO, hU, hv⟩ := h
  have hbase : ∀ kind, baseParams kind id d = .ok ⟨kind, E.id, .int E.r, .int E.p, E.o, E.u, (dictGet d b!"Length").getD (.int 40), true, [], [], [], [], []⟩ := by
    intro kind
    unfold baseParams docidOf
    rw [h1]
    dsimp only
    rw [hexOf_fromHex h2, hR, hP]
    dsimp only
    rw [entryBytes_ok hO, entryBytes_ok hU]
  unfold mkHandler paramsOf
  rw [hV, hp]
  dsimp only [Option.getD_some]
  rcases hv with ⟨v1, hm, hr⟩ | ⟨hv4, hr, hn, hf, hmeta⟩
  · rw [if_pos v1, hbase]
    refine ⟨_, ?_, rfl⟩
    rcases hr with ⟨r2, n5⟩ | ⟨r3, n1, n2, hl⟩
    · exact { kind := by simp, sup := by simp [supported, r2], r := rfl, rs := Or.inl r2, p := rfl, pr := hpr, o := rfl, u := rfl, docid := rfl, meta' := hm.symm,
              n5 := fun _ => n5, n := by omega, len := fun h => by omega }
    · refine { kind := by simp, sup := by simp [supported, r3], r := rfl, rs := Or.inr (Or.inl r3), p := rfl, pr := hpr, o := rfl, u := rfl, docid := rfl,
               meta' := hm.symm, n5 := fun h => by omega, n := ⟨n1, n2⟩, len := fun _ => ?_ }
      unfold keyLength
      rcases hl with hl | ⟨hl, hn⟩
      · rw [hl]
        dsimp only [Option.getD_some]
        congr 1
        omega
      · rw [hl, hn]
        rfl
  · rw [hv4, if_neg (by omega), if_pos rfl]
    obtain ⟨cfm, stmf, strf, hq⟩ := v4Params_ok (kind := .v4) (methods := [b!"V2", b!"AESV2"]) (by decide) (hbase .v4) hf
    rw [hq]
    refine ⟨_, ?_, rfl⟩
    refine { kind := by simp, sup := by simp [supported, hr], r := rfl, rs := Or.inr (Or.inr hr), p := rfl, pr := hpr, o := rfl, u := rfl, docid := rfl,
             meta' := ?_, n5 := fun h => by omega, n := by omega, len := fun _ => ?_ }
    · dsimp only
      rcases hmeta with e | ⟨e, hm⟩
      · rw [e]; rfl
      · rw [e, hm]; rfl
    · unfold keyLength
      rw [hn]
      rfl

end PdfReader
