import Verif.Lemmas.Filters

namespace PdfReader
open Spec

theorem byteToBits_spec : ∀ c : Byte, byteToBits c = bitsOf 8 c.toNat :=
  forall_u8 (fun c => byteToBits c = bitsOf 8 c.toNat) (by decide +kernel)

theorem bytesToBits_spec (bs : Bytes) : bytesToBits bs = bits8 bs := by
  simp [bytesToBits, bits8, funext byteToBits_spec]

theorem bitsOf_length (w v : Nat) : (bitsOf w v).length = w := by
  induction w with
  | zero => rfl
  | succ w ih => simp [bitsOf, ih]

theorem foldl_bits (w v acc : Nat) :
    (bitsOf w v).foldl (fun a b => 2 * a + b.toNat) acc = acc * 2 ^ w + v % 2 ^ w := by
  induction w generalizing acc with
  | zero => simp [bitsOf, Nat.mod_one]
  | succ w ih =>
    simp only [bitsOf, List.foldl_cons, ih]
    have hb : (v / 2 ^ w % 2 == 1).toNat = v / 2 ^ w % 2 := by
      rcases Nat.mod_two_eq_zero_or_one (v / 2 ^ w) with h | h <;> simp [h]
    rw [hb, Nat.pow_succ, Nat.mod_mul]
    rw [Nat.add_mul, Nat.mul_comm (v / 2 ^ w % 2)]
    rw [show 2 * acc * 2 ^ w = acc * (2 ^ w * 2) by
      rw [Nat.mul_comm 2 acc, Nat.mul_assoc, Nat.mul_comm 2]]
    omega

theorem intFromBits_bitsOf {w v : Nat} (h : v < 2 ^ w) : intFromBits (bitsOf w v) = v := by
  simp [intFromBits, foldl_bits, Nat.mod_eq_of_lt h]

/-- State after having read `n` non-control codes since the last clear. -/
structure UOk (n : Nat) (s : Unpack) : Prop where
  bits : s.bits = []
  ignore : s.ignore = 0
  codesize : s.codesize = 258 + n
  wide : 9 ≤ s.width
  width : n < 3838 → s.width = lzwWidth n

theorem unpack_pending (s : Unpack) (hs : s.ignore = 0) (bs : List Bool) (h : s.bits.length + bs.length < s.width)
    (rest : List Bool) :
    ∃ off, unpackBits s (bs ++ rest) = unpackBits { s with bits := s.bits ++ bs, offset := off } rest := by
  induction bs generalizing s with
  | nil => exact ⟨s.offset, by simp⟩
  | cons b bs ih =>
    simp only [List.length_cons] at h
    have hstep : unpackStep s b = ({ s with offset := (s.offset + 1) % 8, bits := s.bits ++ [b] }, none) := by
      simp only [unpackStep, hs, List.length_append, List.length_singleton]
      rw [if_neg (by omega), if_neg (by omega)]
    obtain ⟨off, ho⟩ := ih { s with offset := (s.offset + 1) % 8, bits := s.bits ++ [b] } hs (by simp; omega)
    refine ⟨off, ?_⟩
    simp only [List.cons_append, unpackBits, hstep]
    rw [ho]
    simp

theorem unpack_short (s : Unpack) (bs : List Bool) (h : s.bits.length + bs.length < s.width) :
    unpackBits s bs = [] := by
  induction bs generalizing s with
  | nil => rfl
  | cons b bs ih =>
    simp only [List.length_cons] at h
    by_cases hi : s.ignore > 0
    · have : unpackStep s b = ({ s with offset := (s.offset + 1) % 8, ignore := s.ignore - 1 }, none) := by
        simp only [unpackStep]; rw [if_pos hi]
      simp only [unpackBits, this]
      exact ih _ (by simp; omega)
    · have : unpackStep s b = ({ s with offset := (s.offset + 1) % 8, bits := s.bits ++ [b] }, none) := by
        simp only [unpackStep, List.length_append, List.length_singleton]
        rw [if_neg hi, if_neg (by omega)]
      simp only [unpackBits, this]
      exact ih _ (by simp; omega)

theorem bitsOf_split (w v : Nat) (hw : 0 < w) : ∃ bs b, bitsOf w v = bs ++ [b] ∧ bs.length + 1 = w := by
  have hl := bitsOf_length w v
  have hne : bitsOf w v ≠ [] := by
    intro h; rw [h] at hl; simp at hl; omega
  refine ⟨(bitsOf w v).dropLast, (bitsOf w v).getLast hne, (List.dropLast_concat_getLast hne).symm, ?_⟩
  rw [List.length_dropLast, hl]; omega

/-- One whole code through the unpacker. -/
theorem unpack_code (n : Nat) (s : Unpack) (hs : UOk n s) (v : Nat) (hv : v < 2 ^ s.width) (rest : List Bool) :
    ∃ s', unpackBits s (bitsOf s.width v ++ rest) = v :: unpackBits s' rest ∧ s'.bits = [] ∧
      (v ≠ 257 → s'.ignore = 0) ∧
      (v = 256 ∨ v = 257 → s'.codesize = 258 ∧ s'.width = 9) ∧
      (v ≠ 256 → v ≠ 257 → s'.codesize = 258 + (n + 1) ∧ s'.width = bumpWidth (258 + (n + 1)) s.width) := by
  obtain ⟨bs, b, hb, hl⟩ := bitsOf_split s.width v (by have := hs.wide; omega)
  obtain ⟨off, ho⟩ := unpack_pending s hs.ignore bs (by simp [hs.bits]; omega) (b :: rest)
  rw [hb, List.append_assoc, List.singleton_append, ho]
  simp only [hs.bits, List.nil_append, unpackBits]
  have hval : intFromBits (bs ++ [b]) = v := by rw [← hb]; exact intFromBits_bitsOf hv
  have hlen : (bs ++ [b]).length = s.width := by simp [hl]
  by_cases hc : v = 256 ∨ v = 257
  · refine ⟨{ bits := [], offset := (off + 1) % 8, ignore := if v = 257 then (8 - (off + 1) % 8) % 8 else 0, codesize := 258, width := 9 }, ?_, rfl, ?_, ?_, ?_⟩
    · simp only [unpackStep, hs.ignore, hlen, hval]
      rw [if_neg (by omega), if_pos trivial, if_pos hc]
    · intro h; simp [h]
    · intro _; exact ⟨rfl, rfl⟩
    · intro h1 h2; rcases hc with h | h <;> contradiction
  · refine ⟨{ bits := [], offset := (off + 1) % 8, ignore := 0, codesize := 258 + (n + 1), width := bumpWidth (258 + (n + 1)) s.width }, ?_, rfl, ?_, ?_, ?_⟩
    · have h257 : v ≠ 257 := fun h => hc (Or.inr h)
      simp only [unpackStep, hs.ignore, hlen, hval, hs.codesize]
      rw [if_neg (by omega), if_pos trivial, if_neg hc, if_neg h257]
      rfl
    · intro _; rfl
    · intro h; exact absurd h hc
    · intro _ _; exact ⟨rfl, rfl⟩

theorem bump_width (n : Nat) (h : n < 3838) :
    9 ≤ bumpWidth (258 + (n + 1)) (lzwWidth n) ∧
      (n + 1 < 3838 → bumpWidth (258 + (n + 1)) (lzwWidth n) = lzwWidth (n + 1)) := by
  unfold bumpWidth lzwWidth
  constructor
  · split <;> repeat' split
    all_goals omega
  · intro h2
    by_cases h254 : n < 254
    · simp only [h254, if_true]
      by_cases h : n + 1 < 254
      · simp only [h, if_true]; rw [if_neg (by omega)]
      · simp only [h, if_false]; rw [if_pos (by omega), if_pos (by omega)]
    · by_cases h766 : n < 766
      · simp only [h254, h766, if_true, if_false, show ¬ n + 1 < 254 by omega]
        by_cases h : n + 1 < 766
        · simp only [h, if_true]; rw [if_neg (by omega)]
        · simp only [h, if_false]; rw [if_pos (by omega), if_pos (by omega)]
      · by_cases h1790 : n < 1790
        · simp only [h254, h766, h1790, if_true, if_false, show ¬ n + 1 < 254 by omega, show ¬ n + 1 < 766 by omega]
          by_cases h : n + 1 < 1790
          · simp only [h, if_true]; rw [if_neg (by omega)]
          · simp only [h, if_false]; rw [if_pos (by omega)]
        · simp only [h254, h766, h1790, if_false, show ¬ n + 1 < 254 by omega, show ¬ n + 1 < 766 by omega, show ¬ n + 1 < 1790 by omega]
          rw [if_neg (by omega)]

theorem unpack_pack {n : Nat} {cs : List Nat} {bits : List Bool} (h : LzwPack n cs bits) :
    ∀ (s : Unpack), UOk n s → ∀ pad : List Bool, pad.length < 9 → unpackBits s (bits ++ pad) = cs := by
  induction h with
  | nil n =>
    intro s hs pad hp
    have := hs.wide
    exact unpack_short s _ (by simp [hs.bits]; omega)
  | clear n cs bits hn _ ih =>
    intro s hs pad hp
    have hw := hs.width hn
    have h9 := hs.wide
    have hlt : 256 < 2 ^ s.width := Nat.lt_of_lt_of_le (by decide : 256 < 2 ^ 9) (Nat.pow_le_pow_right (by decide) h9)
    obtain ⟨s', h1, h2, h3, h4, _⟩ := unpack_code n s hs 256 hlt (bits ++ pad)
    rw [List.append_assoc, ← hw, h1]
    congr 1
    refine ih s' ⟨h2, h3 (by decide), (h4 (Or.inl rfl)).1, ?_, ?_⟩ pad hp
    · rw [(h4 (Or.inl rfl)).2]; exact Nat.le_refl 9
    · intro _; rw [(h4 (Or.inl rfl)).2]; rfl
  | eod n hn =>
    intro s hs pad hp
    have hw := hs.width hn
    have h9 := hs.wide
    have hlt : 257 < 2 ^ s.width := Nat.lt_of_lt_of_le (by decide : 257 < 2 ^ 9) (Nat.pow_le_pow_right (by decide) h9)
    obtain ⟨s', h1, h2, _, h4, _⟩ := unpack_code n s hs 257 hlt pad
    rw [← hw, h1]
    congr 1
    exact unpack_short s' _ (by rw [h2, (h4 (Or.inr rfl)).2]; simpa using hp)
  | code n c cs bits hn h256 h257 hc _ ih =>
    intro s hs pad hp
    have hw := hs.width hn
    rw [← hw] at hc
    obtain ⟨s', h1, h2, h3, _, h5⟩ := unpack_code n s hs c hc (bits ++ pad)
    rw [List.append_assoc, ← hw, h1]
    congr 1
    have hb := bump_width n hn
    refine ih s' ⟨h2, h3 h257, (h5 h256 h257).1, ?_, ?_⟩ pad hp
    · rw [(h5 h256 h257).2, hw]; exact hb.1
    · intro hn'; rw [(h5 h256 h257).2, hw]; exact hb.2 hn'

/-! ### decoder -/

/-- Table entries 258, 259, … determined by the phrases since the last clear. -/
def entriesOf (ps : List Bytes) : List Bytes := List.zipWith (fun u v => u ++ v.take 1) ps ps.tail

theorem entriesOf_snoc (ps : List Bytes) (w : Bytes) :
    entriesOf (ps ++ [w]) = entriesOf ps ++ (match ps.getLast? with
      | some p => [p ++ w.take 1] | none => []) := by
  induction ps with
  | nil => rfl
  | cons p ps ih =>
    cases ps with
    | nil => rfl
    | cons q qs =>
      have e1 : entriesOf ((p :: q :: qs) ++ [w]) = (p ++ q.take 1) :: entriesOf ((q :: qs) ++ [w]) := rfl
      have e2 : entriesOf (p :: q :: qs) = (p ++ q.take 1) :: entriesOf (q :: qs) := rfl
      rw [e1, e2, ih]
      simp [List.getLast?_cons_cons]

theorem entriesOf_get (ps : List Bytes) (j : Nat) (u v : Bytes) (hu : ps[j]? = some u) (hv : ps[j + 1]? = some v) :
    (entriesOf ps)[j]? = some (u ++ v.take 1) := by
  simp only [entriesOf, List.getElem?_zipWith, List.getElem?_tail, hu, hv]

structure DOk (ps : List Bytes) (d : LzwDec) : Prop where
  extra : d.extra = entriesOf ps
  pfx : d.pfx = ps.getLast?

theorem lzwStep_known {ps : List Bytes} {d : LzwDec} (h : DOk ps d) {cp : Nat} {w : Bytes} (h6 : cp ≠ 256) (h7 : cp ≠ 257)
    (hl : d.lookup cp = some w) : ∃ d', lzwStep d cp = .ok (d', w) ∧ DOk (ps ++ [w]) d' := by
  simp only [lzwStep, if_neg h6, if_neg h7, hl]
  refine ⟨_, rfl, ?_, ?_⟩
  · rw [entriesOf_snoc, h.extra, h.pfx]
    cases ps.getLast? <;> simp
  · simp

theorem lzwCodes_seq {ps : List Bytes} {cs : List Nat} {data : Bytes} (h : LzwSeq false ps cs data) :
    ∀ d, DOk ps d → lzwCodes d cs = .ok data := by
  induction h with
  | done => intro d _; rfl
  | clear ps cs data _ ih =>
    intro d _
    simp only [lzwCodes, lzwStep, if_true]
    rw [ih {} ⟨rfl, rfl⟩]
    rfl
  | byte ps cs data b _ ih =>
    intro d hd
    have hb := b.toNat_lt
    obtain ⟨d', h1, h2⟩ := lzwStep_known (cp := b.toNat) (w := [b]) hd (by omega) (by omega)
      (by simp [LzwDec.lookup, show b.toNat < 256 from hb])
    simp only [lzwCodes, h1, ih d' h2]
    rfl
  | entry ps cs data j u v hu hv _ ih =>
    intro d hd
    obtain ⟨d', h1, h2⟩ := lzwStep_known (cp := 258 + j) (w := u ++ v.take 1) hd (by omega) (by omega)
      (by simp only [LzwDec.lookup]
          rw [if_neg (by omega), show 258 + j - 258 = j by omega, hd.extra]
          exact entriesOf_get ps j u v hu hv)
    simp only [lzwCodes, h1, ih d' h2]
  | self ps cs data j u hk => simp at hk

/-- A code sequence with an end-of-data code raises: the data is lost. -/
theorem lzwCodes_eod (cs rest : List Nat) : ∀ d, lzwCodes d (cs ++ 257 :: rest) = .error .valueError ∨
    lzwCodes d (cs ++ 257 :: rest) = .error .typeError := by
  induction cs with
  | nil => intro d; left; simp [lzwCodes, lzwStep]
  | cons c cs ih =>
    intro d
    simp only [List.cons_append, lzwCodes]
    cases hs : lzwStep d c with
    | error e =>
      unfold lzwStep at hs
      simp only
      split at hs
      · cases hs
      · split at hs
        · cases hs; left; rfl
        · split at hs
          · cases hs
          · split at hs
            · cases hs; right; rfl
            · cases hs
    | ok r =>
      rcases ih r.1 with h | h <;> simp [h]

end PdfReader
