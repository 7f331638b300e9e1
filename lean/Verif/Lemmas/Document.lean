/-
  Lemmas about Verif/Model/Document.lean.
-/
import Verif.Lemmas.GrammarParse
import Verif.Model.Document
import Verif.Spec.Document

namespace PdfReader
open Spec

/-! ### Header -/

theorem startsWith_iff {p w : Bytes} : startsWith p w = true ↔ ∃ b, w = p ++ b := by
  unfold startsWith
  rw [List.isPrefixOf_iff_prefix]
  constructor
  · rintro ⟨b, h⟩; exact ⟨b, h.symm⟩
  · rintro ⟨b, h⟩; exact ⟨b, h.symm⟩

theorem verAt_iff {w v : Bytes} : verAt w = some v ↔ Version v ∧ ∃ b, w = v ++ b := by
  constructor
  · intro h
    unfold verAt at h
    split at h
    · rename_i a p b r
      split at h
      · rename_i hc
        simp only [Bool.and_eq_true, beq_iff_eq] at hc
        cases h
        obtain ⟨⟨h1, rfl⟩, h3⟩ := hc
        exact ⟨⟨a, b, (digit_iff a).mpr h1, (digit_iff b).mpr h3, rfl⟩, r, rfl⟩
      · cases h
    · cases h
  · rintro ⟨⟨a, b, ha, hb, rfl⟩, r, rfl⟩
    simp [verAt, (digit_iff a).mp ha, (digit_iff b).mp hb]

theorem pdfAt_iff {w v : Bytes} : pdfAt w = some v ↔ Version v ∧ ∃ b, w = (b!"%PDF-" ++ v) ++ b := by
  unfold pdfAt
  constructor
  · intro h
    split at h
    · rename_i hs
      obtain ⟨b, rfl⟩ := startsWith_iff.mp hs
      obtain ⟨hv, c, hc⟩ := verAt_iff.mp h
      refine ⟨hv, c, ?_⟩
      simp at hc
      simp [hc]
    · cases h
  · rintro ⟨hv, b, rfl⟩
    rw [if_pos (startsWith_iff.mpr ⟨v ++ b, by simp⟩)]
    exact verAt_iff.mpr ⟨hv, b, by simp⟩

theorem ver_length {v : Bytes} (h : Version v) : v.length = 3 := by
  obtain ⟨a, b, _, _, rfl⟩ := h; rfl

theorem ipsAt_iff {w v : Bytes} : ipsAt w = some v ↔
    ∃ u, Version u ∧ Version v ∧ ∃ b, w = (b!"%IPS-Adobe-" ++ (u ++ (b!" PDF-" ++ v))) ++ b := by
  unfold ipsAt
  constructor
  · intro h
    split at h
    · rename_i hs
      simp only [Bool.and_eq_true] at hs
      obtain ⟨⟨h1, h2⟩, h3⟩ := hs
      obtain ⟨b, rfl⟩ := startsWith_iff.mp h1
      obtain ⟨u, hu⟩ := Option.isSome_iff_exists.mp h2
      obtain ⟨huv, c, hc⟩ := verAt_iff.mp hu
      simp at hc
      subst hc
      obtain ⟨a1, a2, h5, h6, rfl⟩ := huv
      obtain ⟨e, he⟩ := startsWith_iff.mp h3
      simp at he
      subst he
      obtain ⟨hv, g, hg⟩ := verAt_iff.mp h
      simp at hg
      subst hg
      exact ⟨_, ⟨a1, a2, h5, h6, rfl⟩, hv, g, by simp⟩
    · cases h
  · rintro ⟨u, ⟨a1, a2, h5, h6, rfl⟩, hv, b, rfl⟩
    rw [if_pos]
    · exact verAt_iff.mpr ⟨hv, b, by simp⟩
    · simp only [Bool.and_eq_true]
      refine ⟨⟨startsWith_iff.mpr ⟨_, by simp; rfl⟩, ?_⟩, startsWith_iff.mpr ⟨_, by simp; rfl⟩⟩
      rw [Option.isSome_iff_exists]
      exact ⟨[a1, 46, a2], verAt_iff.mpr ⟨⟨a1, a2, h5, h6, rfl⟩, _, by simp; rfl⟩⟩

/-- A successful search is a match at a line start. -/
theorem search_some {pat : Bytes → Option Bytes} : ∀ (w : Bytes) (bol : Bool) (i k : Nat) (v : Bytes),
    search pat bol i w = some (k, v) →
    ∃ a b, w = a ++ b ∧ k = i + a.length ∧ pat b = some v ∧ ((a = [] ∧ bol = true) ∨ ∃ a', a = a' ++ [10]) := by
  intro w
  induction w with
  | nil => intro bol i k v h; cases h
  | cons c r ih =>
    intro bol i k v h
    have hrec : search pat (c == 10) (i + 1) r = some (k, v) →
        ∃ a b, c :: r = a ++ b ∧ k = i + a.length ∧ pat b = some v ∧ ((a = [] ∧ bol = true) ∨ ∃ a', a = a' ++ [10]) := by
      intro h
      obtain ⟨a, b, e, hk, hp, hl⟩ := ih _ _ _ _ h
      refine ⟨c :: a, b, by rw [e]; rfl, by simp [hk]; omega, hp, Or.inr ?_⟩
      rcases hl with ⟨rfl, hc⟩ | ⟨a', rfl⟩
      · exact ⟨[], by simpa using hc⟩
      · exact ⟨c :: a', rfl⟩
    unfold search at h
    split at h
    · rename_i h1
      cases h
      exact ⟨[], c :: r, rfl, rfl, h1, Or.inl ⟨rfl, rfl⟩⟩
    · exact hrec h

/-- The search finds the first match at a line start. -/
theorem search_first {pat : Bytes → Option Bytes} (a b : Bytes) (v : Bytes) (hb : b ≠ []) (hp : pat b = some v) :
    ∀ (bol : Bool) (i : Nat), ((a = [] ∧ bol = true) ∨ ∃ a', a = a' ++ [10]) →
    (∀ a' b', a ++ b = a' ++ b' → a'.length < a.length → pat b' = none) →
    search pat bol i (a ++ b) = some (i + a.length, v) := by
  induction a with
  | nil =>
    intro bol i hl hf
    rcases hl with ⟨_, rfl⟩ | ⟨a', h⟩
    · cases b with
      | nil => exact absurd rfl hb
      | cons c r => simp [search, hp]
    · simp at h
  | cons c a ih =>
    intro bol i hl hf
    have h0 : pat (c :: (a ++ b)) = none := hf [] _ rfl (by simp)
    rw [List.cons_append, search]
    have : search pat (c == 10) (i + 1) (a ++ b) = some (i + 1 + a.length, v) := by
      apply ih
      · rcases hl with ⟨h, _⟩ | ⟨a', h⟩
        · cases h
        · cases a' with
          | nil => simp at h; left; simp [h.2, h.1]
          | cons x a' => simp at h; right; exact ⟨a', h.2⟩
      · intro a' b' e hlt
        exact hf (c :: a') b' (by rw [List.cons_append, List.cons_append, e]) (by simp; exact hlt)
    · rw [this]; simp; omega
    · intro v' _ hq; rw [h0] at hq; cases hq

theorem search_none {pat : Bytes → Option Bytes} (w : Bytes) (bol : Bool) (i : Nat)
    (h : ∀ a b, w = a ++ b → pat b = none) : search pat bol i w = none := by
  cases hs : search pat bol i w with
  | none => rfl
  | some p =>
    obtain ⟨a, b, e, _, hp, _⟩ := search_some _ _ _ _ _ hs
    rw [h a b e] at hp; cases hp

theorem pdf_hdr {w v : Bytes} (h : pdfAt w = some v) : ∃ h b, w = h ++ b ∧ Hdr v h := by
  obtain ⟨hv, b, e⟩ := pdfAt_iff.mp h
  exact ⟨_, b, e, .pdf v hv⟩

theorem ips_hdr {w v : Bytes} (h : ipsAt w = some v) : ∃ h b, w = h ++ b ∧ Hdr v h := by
  obtain ⟨u, hu, hv, b, e⟩ := ipsAt_iff.mp h
  exact ⟨_, b, e, .ips u v hu hv⟩

/-- Whatever is found in a window is a header there. -/
theorem headerIn_sound {w v : Bytes} {k : Nat} (h : headerIn w = some (k, v)) :
    ∃ a hd b, w = a ++ (hd ++ b) ∧ a.length = k ∧ Hdr v hd := by
  unfold headerIn at h
  cases h1 : search pdfAt true 0 w with
  | some p =>
    rw [h1] at h
    cases h
    obtain ⟨a, b, e, hk, hp, _⟩ := search_some _ _ _ _ _ h1
    obtain ⟨hd, b', e', hh⟩ := pdf_hdr hp
    exact ⟨a, hd, b', by rw [e, e'], by omega, hh⟩
  | none =>
    rw [h1] at h
    simp only [Option.none_or] at h
    obtain ⟨a, b, e, hk, hp, _⟩ := search_some _ _ _ _ _ h
    obtain ⟨hd, b', e', hh⟩ := ips_hdr hp
    exact ⟨a, hd, b', by rw [e, e'], by omega, hh⟩

theorem fileRead_occ {file : Bytes} {i n : Nat} {a hd b : Bytes} (h : fileRead file i n = a ++ (hd ++ b)) :
    (∃ b', file = (file.take i ++ a) ++ (hd ++ b')) ∧ a.length + hd.length ≤ n ∧
    (file.take i ++ a).length = (if i ≤ file.length then i + a.length else file.length + a.length) := by
  unfold fileRead at h
  refine ⟨⟨b ++ (file.drop i).drop n, ?_⟩, ?_, ?_⟩
  · have e : file = file.take i ++ ((file.drop i).take n ++ (file.drop i).drop n) := by
      rw [List.take_append_drop, List.take_append_drop]
    conv => lhs; rw [e, h]
    simp
  · have := congrArg List.length h
    simp at this
    omega
  · simp; split <;> omega

theorem hdr_shape {v h : Bytes} (hh : Hdr v h) : (h.length = 8 ∧ ∃ t, h = 37 :: 80 :: t) ∨ (h.length = 22 ∧ ∃ t, h = 37 :: 73 :: t ∧ 37 ∉ t) := by
  have nd : ∀ c : Byte, Digit c → c ≠ 37 := by
    intro c hc e; subst e; rw [digit_iff] at hc; revert hc; decide
  cases hh with
  | pdf _ hv => left; exact ⟨by simp [ver_length hv], _, rfl⟩
  | ips u _ hu hv =>
    right
    refine ⟨by simp [ver_length hu, ver_length hv], _, rfl, ?_⟩
    obtain ⟨a, b, ha, hb, rfl⟩ := hu
    obtain ⟨c, d, hc, hd, rfl⟩ := hv
    have h1 := (nd a ha).symm
    have h2 := (nd b hb).symm
    have h3 := (nd c hc).symm
    have h4 := (nd d hd).symm
    simp [h1, h2, h3, h4]


theorem headerLoop_hit {file v : Bytes} {i0 k : Nat} (hhit : headerIn (fileRead file i0 22) = some (k, v)) :
    ∀ (budget i : Nat), i ≤ i0 → i0 ≤ i + budget → (∀ j, i ≤ j → j < i0 → headerIn (fileRead file j 22) = none) →
    (i < i0 → i0 + 21 < file.length) → headerLoop file budget i = .ok (v, i0 + k) := by
  intro budget
  induction budget with
  | zero =>
    intro i h1 h2 _ _
    have : i = i0 := by omega
    subst this
    rw [headerLoop, hhit]
  | succ b ih =>
    intro i h1 h2 h3 h4
    by_cases e : i = i0
    · subst e; rw [headerLoop, hhit]
    · rw [headerLoop, h3 i (Nat.le_refl _) (by omega)]
      simp only
      rw [if_pos (by have := h4 (by omega); omega)]
      exact ih (i + 1) (by omega) (by omega) (fun j hj hj2 => h3 j (by omega) hj2) (fun h => h4 (by omega))

theorem headerLoop_miss {file : Bytes} :
    ∀ (budget i : Nat), (∀ j, j ≤ i + budget → headerIn (fileRead file j 22) = none) →
    headerLoop file budget i = .error .parser := by
  intro budget
  induction budget with
  | zero => intro i h; rw [headerLoop, h _ (by omega)]
  | succ b ih =>
    intro i h
    rw [headerLoop, h _ (by omega)]
    simp only
    split
    · exact ih _ (fun j hj => h j (by omega))
    · rfl

theorem headerLoop_finds {file : Bytes} {p : Nat} (hp : headerIn (fileRead file p 22) ≠ none) (hl : p + 22 ≤ file.length) :
    ∀ (budget i : Nat), i ≤ p → p ≤ i + budget → ∃ v off, headerLoop file budget i = .ok (v, off) := by
  intro budget
  induction budget with
  | zero =>
    intro i h1 h2
    have : i = p := by omega
    subst this
    rw [headerLoop]
    cases h : headerIn (fileRead file i 22) with
    | none => exact absurd h hp
    | some q => exact ⟨_, _, rfl⟩
  | succ b ih =>
    intro i h1 h2
    rw [headerLoop]
    cases h : headerIn (fileRead file i 22) with
    | some q => exact ⟨_, _, rfl⟩
    | none =>
      have : i ≠ p := fun e => hp (e ▸ h)
      simp only
      rw [if_pos (by omega)]
      exact ih _ (by omega) (by omega)

theorem hdr_version_unique {v v' h h' x y : Bytes} (hh : Hdr v h) (hh' : Hdr v' h') (e : h ++ x = h' ++ y) : v = v' := by
  cases hh with
  | pdf _ hv =>
    cases hh' with
    | pdf _ hv' =>
      obtain ⟨a, b, _, _, rfl⟩ := hv
      obtain ⟨a', b', _, _, rfl⟩ := hv'
      simp at e
      simp [e.1, e.2.1]
    | ips u _ hu hv' => simp at e
  | ips u _ hu hv =>
    cases hh' with
    | pdf _ hv' => simp at e
    | ips u' _ hu' hv' =>
      obtain ⟨a, b, _, _, rfl⟩ := hv
      obtain ⟨a', b', _, _, rfl⟩ := hv'
      obtain ⟨c, d, _, _, rfl⟩ := hu
      obtain ⟨c', d', _, _, rfl⟩ := hu'
      simp at e
      simp [e.2.2.1, e.2.2.2.1]

theorem headerLoop_sound {file v : Bytes} {off : Nat} : ∀ (budget i : Nat),
    headerLoop file budget i = .ok (v, off) → i ≤ file.length → ∃ a hd b, file = a ++ (hd ++ b) ∧ a.length = off ∧ Hdr v hd ∧
      off + hd.length ≤ i + budget + 22 := by
  intro budget
  induction budget with
  | zero =>
    intro i h hi
    rw [headerLoop] at h
    split at h
    · rename_i k v' hk
      cases h
      obtain ⟨a, hd, b, e, hl, hh⟩ := headerIn_sound hk
      obtain ⟨⟨b', e'⟩, h2, h3⟩ := fileRead_occ e
      exact ⟨_, hd, b', e', by rw [h3, if_pos hi, hl], hh, by omega⟩
    · cases h
  | succ bu ih =>
    intro i h hi
    rw [headerLoop] at h
    split at h
    · rename_i k v' hk
      cases h
      obtain ⟨a, hd, b, e, hl, hh⟩ := headerIn_sound hk
      obtain ⟨⟨b', e'⟩, h2, h3⟩ := fileRead_occ e
      exact ⟨_, hd, b', e', by rw [h3, if_pos hi, hl], hh, by omega⟩
    · split at h
      · obtain ⟨a, hd, b, h1, h2, h3, h4⟩ := ih _ h (by omega)
        exact ⟨a, hd, b, h1, h2, h3, by omega⟩
      · cases h

/-- A header found in a window is a header of the file. -/
theorem window_hdr {file v : Bytes} {i k : Nat} (h : headerIn (fileRead file i 22) = some (k, v)) :
    ∃ a hd b, file = a ++ (hd ++ b) ∧ Hdr v hd ∧ a.length + hd.length ≤ i + 22 ∧ (i ≤ file.length → a.length = i + k) := by
  obtain ⟨a, hd, b, e, hl, hh⟩ := headerIn_sound h
  obtain ⟨⟨b', e'⟩, h2, h3⟩ := fileRead_occ e
  refine ⟨_, hd, b', e', hh, ?_, ?_⟩
  · rw [h3]; split <;> omega
  · intro hi; rw [h3, if_pos hi, hl]

/-- Two headers in one file do not overlap in the way which would hide one of them. -/
theorem hdr_no_inner {v v' h h' x y z : Bytes} (hh : Hdr v h) (hh' : Hdr v' h') (e : h ++ x = y ++ (h' ++ z))
    (hl : y.length + h'.length < h.length ∨ (y.length + h'.length ≤ h.length ∧ h'.length < h.length)) : False := by
  rcases hdr_shape hh with ⟨h8, t, rfl⟩ | ⟨h22, t, rfl, ht⟩
  · rcases hdr_shape hh' with ⟨h8', _⟩ | ⟨h22', _⟩ <;> omega
  · rcases hdr_shape hh' with ⟨h8', t', rfl⟩ | ⟨h22', _⟩
    · match y, e with
      | [], e => simp at e
      | [_], e =>
        simp at e
      | a :: b :: y, e =>
        simp at e
        have hm : (37 : Byte) ∈ t := by
          have h1 : (t ++ x)[y.length]? = some 37 := by rw [e.2.2]; simp
          rw [List.getElem?_append_left (by simp at hl h22 h8'; omega)] at h1
          exact List.mem_of_getElem? h1
        exact ht hm
    · omega

/-! ### startxref -/

theorem startsWith_drop {pat file : Bytes} {k : Nat} (hk : k ≤ file.length) :
    startsWith pat (file.drop k) = true ↔ OccursAt pat file k := by
  rw [startsWith_iff]
  constructor
  · rintro ⟨b, h⟩
    exact ⟨file.take k, b, by rw [← h, List.take_append_drop], by simp; omega⟩
  · rintro ⟨a, b, h, hl⟩
    exact ⟨b, by rw [h, ← hl, List.drop_left]⟩

theorem eofBack_hit {file : Bytes} {k0 : Nat} (h0 : OccursAt (b!"%%EOF") file k0) (hpos : 0 < k0) :
    ∀ (b k : Nat), k0 ≤ k → k ≤ file.length → k - k0 < b → (∀ j, OccursAt (b!"%%EOF") file j → j ≤ k0) → eofBack file b k = some k0 := by
  intro b
  induction b with
  | zero => intro k _ _ h; omega
  | succ b ih =>
    intro k h1 hk h2 h3
    cases k with
    | zero => omega
    | succ k =>
      rw [eofBack]
      by_cases e : k + 1 = k0
      · rw [if_pos ((startsWith_drop hk).mpr (e ▸ h0)), e]
      · rw [if_neg, ih k (by omega) (by omega) (by omega) h3]
        intro h
        have := h3 _ ((startsWith_drop hk).mp h)
        omega

theorem findBack_hit {file : Bytes} {k0 K : Nat} (h0 : OccursAt (b!"startxref") file k0) (hpos : 0 < k0) :
    ∀ (k : Nat), k0 ≤ k → k ≤ K → k ≤ file.length → (∀ j, OccursAt (b!"startxref") file j → j ≤ K → j ≤ k0) → findBack file k = some k0 := by
  intro k
  induction k with
  | zero => intro h; omega
  | succ k ih =>
    intro h1 hK hk h3
    rw [findBack]
    by_cases e : k + 1 = k0
    · rw [if_pos ((startsWith_drop hk).mpr (e ▸ h0)), e]
    · rw [if_neg, ih (by omega) (by omega) (by omega) h3]
      intro h
      have := h3 _ ((startsWith_drop hk).mp h) hK
      omega

theorem eofBack_sound {file : Bytes} : ∀ (b k r : Nat), k ≤ file.length → eofBack file b k = some r →
    OccursAt (b!"%%EOF") file r ∧ 0 < r ∧ r ≤ k ∧ k < r + b ∧ ∀ j, OccursAt (b!"%%EOF") file j → j ≤ k → j ≤ r := by
  intro b
  induction b with
  | zero => intro k r _ h; cases h
  | succ b ih =>
    intro k r hk h
    cases k with
    | zero => cases h
    | succ k =>
      rw [eofBack] at h
      split at h
      · rename_i hs
        cases h
        exact ⟨(startsWith_drop hk).mp hs, by omega, by omega, by omega, fun j _ h => h⟩
      · rename_i hs
        obtain ⟨h1, h2, h3, h4, h5⟩ := ih k r (by omega) h
        refine ⟨h1, h2, by omega, by omega, fun j hj hle => ?_⟩
        by_cases e : j = k + 1
        · subst e; exact absurd ((startsWith_drop hk).mpr hj) hs
        · exact h5 j hj (by omega)

theorem findBack_sound {file : Bytes} : ∀ (k r : Nat), k ≤ file.length → findBack file k = some r →
    OccursAt (b!"startxref") file r ∧ 0 < r ∧ r ≤ k ∧ ∀ j, OccursAt (b!"startxref") file j → j ≤ k → j ≤ r := by
  intro k
  induction k with
  | zero => intro r _ h; cases h
  | succ k ih =>
    intro r hk h
    rw [findBack] at h
    split at h
    · rename_i hs
      cases h
      exact ⟨(startsWith_drop hk).mp hs, by omega, by omega, fun j _ h => h⟩
    · rename_i hs
      obtain ⟨h1, h2, h3, h5⟩ := ih r (by omega) h
      refine ⟨h1, h2, by omega, fun j hj hle => ?_⟩
      by_cases e : j = k + 1
      · subst e; exact absurd ((startsWith_drop hk).mpr hj) hs
      · exact h5 j hj (by omega)

/-! ### Cross-reference tables -/

theorem natGet_set {α : Type} (es : List (Nat × α)) (k : Nat) (v : α) (k' : Nat) :
    natGet (natSet es k v) k' = if k = k' then some v else natGet es k' := by
  induction es with
  | nil => simp [natSet, natGet]
  | cons e es ih =>
    obtain ⟨a, b⟩ := e
    rw [natSet]
    split
    · rename_i h; subst h; simp only [natGet]; split <;> rfl
    · rename_i h
      simp only [natGet, ih]
      split
      · rename_i h2; subst h2; rw [if_neg (fun e => h e.symm)]
      · rfl

theorem digit_not_space : ∀ c : Byte, isDigit c = true → pySpace c = false ∧ isEol c = false ∧ c ≠ 32 ∧ c ≠ 95 ∧ c ≠ 43 ∧ c ≠ 45 ∧ c ≠ 10 :=
  forall_u8 _ (by decide +kernel)

theorem pyDigits_digits (ds : Bytes) (h : ∀ c ∈ ds, isDigit c = true) : ∀ (need : Bool) (acc : Nat), (ds ≠ [] ∨ need = false) →
    pyDigits need acc ds = some (ds.foldl (fun a c => 10 * a + (c.toNat - 48)) acc) := by
  induction ds with
  | nil => intro need acc hn; rcases hn with h | h; · exact absurd rfl h
           · simp [pyDigits, h]
  | cons c ds ih =>
    intro need acc _
    rw [pyDigits, if_pos (h c (by simp)), ih (fun c hc => h c (by simp [hc])) false _ (Or.inr rfl)]
    rfl

theorem dropWhile_not {p : Byte → Bool} {c : Byte} {r : Bytes} (h : p c = false) : (c :: r).dropWhile p = c :: r := by
  simp [List.dropWhile, h]

theorem pyStrip_id {a : Bytes} (h : ∀ c ∈ a, pySpace c = false) : pyStrip a = a := by
  have key : ∀ b : Bytes, (∀ c ∈ b, pySpace c = false) → b.dropWhile pySpace = b := by
    intro b hb
    cases b with
    | nil => rfl
    | cons c r => exact dropWhile_not (hb c (by simp))
  unfold pyStrip
  rw [key a h, key _ (by simpa using h), List.reverse_reverse]

theorem digits_isDigit {ds : Bytes} (h : Digits ds) : ∀ c ∈ ds, isDigit c = true := fun c hc => (digit_iff c).mp (h.2 c hc)

theorem pyInt_digits {ds : Bytes} (h : Digits ds) : pyInt ds = some (decVal ds : Int) := by
  unfold pyInt
  have hd := digits_isDigit h
  rw [pyStrip_id (fun c hc => (digit_not_space c (hd c hc)).1)]
  cases ds with
  | nil => exact absurd rfl h.1
  | cons c r =>
    have := digit_not_space c (hd c (by simp))
    simp only [beq_iff_eq]
    rw [if_neg this.2.2.2.2.2.1, if_neg this.2.2.2.2.1, pyDigits_digits _ hd _ _ (Or.inl (by simp)), ← natOfDigits_eq]
    rfl

theorem takeTo_hit {p : Byte → Bool} (a : Bytes) (c : Byte) (r : Bytes) (ha : ∀ x ∈ a, p x = false) (hc : p c = true) :
    takeTo p (a ++ c :: r) = some (a, c :: r) := by
  induction a with
  | nil => simp [takeTo, hc]
  | cons x a ih => simp [takeTo, ha x (by simp), ih (fun y hy => ha y (by simp [hy]))]

theorem ent_length {e : Ent} {t : Bytes} (h : EntText e t) : t.length = 20 := by
  obtain ⟨ds, gs, use, eol, h1, h2, h3, h4, h5⟩ := h
  have : eol.length = 2 := by
    simp at h5
    rcases h5 with rfl | rfl | rfl <;> rfl
  simp
  omega

theorem xrefEntry_text {e : Ent} {t : Bytes} (h : EntText e t) :
    xrefEntry t = .ok ((e.offset : Int), (e.gen : Int), e.inUse) := by
  obtain ⟨ds, gs, use, eol, h1, h2, h3, h4, h5⟩ := h
  have hd := digits_isDigit h1
  have hg := digits_isDigit h3
  have hstrip : pyStrip (ds ++ (32 :: (gs ++ (32 :: ((if use then 110 else 102) :: eol))))) =
      ds ++ 32 :: (gs ++ 32 :: [if use then 110 else 102]) := by
    unfold pyStrip
    have e1 : (ds ++ (32 :: (gs ++ (32 :: ((if use then 110 else 102) :: eol))))).dropWhile pySpace =
        ds ++ (32 :: (gs ++ (32 :: ((if use then 110 else 102) :: eol)))) := by
      cases ds with
      | nil => exact absurd rfl h1.1
      | cons c r => exact dropWhile_not (digit_not_space c (hd c (by simp))).1
    rw [e1]
    have hf : pySpace (if use then 110 else 102) = false := by cases use <;> decide
    have e2 : (ds ++ (32 :: (gs ++ (32 :: ((if use then 110 else 102) :: eol))))).reverse.dropWhile pySpace =
        (if use then 110 else 102) :: (ds ++ (32 :: (gs ++ [32]))).reverse := by
      simp at h5
      rcases h5 with rfl | rfl | rfl <;> simp [List.dropWhile, hf, show pySpace 32 = true by decide, show pySpace 13 = true by decide, show pySpace 10 = true by decide]
    rw [e2]
    simp
  unfold xrefEntry split3
  rw [hstrip, takeTo_hit ds 32 _ (fun c hc => by have := (digit_not_space c (hd c hc)).2.2.1; simpa using this) rfl]
  simp only [List.tail_cons]
  rw [takeTo_hit gs 32 _ (fun c hc => by have := (digit_not_space c (hg c hc)).2.2.1; simpa using this) rfl]
  simp only [List.tail_cons, pyInt_digits h1, pyInt_digits h3]
  cases use <;> simp

/-- Adding numbered entries in order. -/
def addAll (x : XRef) (es : List (Nat × Ent)) : XRef :=
  es.foldl (fun x e => x.add e.1 ⟨e.2.offset, e.2.gen⟩ e.2.inUse) x

theorem readN_append (t x : Bytes) : readN t.length (t ++ x) = .ok (t, x) := by
  unfold readN
  rw [if_neg (by simp)]
  simp

theorem xrefEntries_text {es : List Ent} {u : Bytes} (h : EntsText es u) : ∀ (num : Nat) (x : XRef) (r : Bytes),
    xrefEntries es.length num x (u ++ r) = .ok (addAll x (numberFrom num es), r) := by
  induction h with
  | nil => intro num x r; rfl
  | cons e es t u he hu ih =>
    intro num x r
    rw [List.length_cons, xrefEntries, List.append_assoc]
    have h20 := readN_append t (u ++ r)
    rw [ent_length he] at h20
    rw [h20]
    simp only [xrefEntry_text he]
    rw [if_neg (by omega)]
    simp only [Int.toNat_natCast]
    rw [ih]
    rfl

theorem ents_nil {es : List Ent} {u : Bytes} (h : EntsText es u) : u = [] → es = [] := by
  intro e
  cases h with
  | nil => rfl
  | cons e es t u he hu' =>
    have h1 := ent_length he
    have h0 := congrArg List.length e
    simp at h0
    simp [h0.1] at h1

theorem dropEol_text {eol u : Bytes} (h : EolText eol) (hu : eol = [13] → NotStart (· = 10) u) : dropEol (eol ++ u) = u := by
  unfold EolText at h
  simp at h
  rcases h with rfl | rfl | rfl
  · have := hu rfl
    cases u with
    | nil => rfl
    | cons c r =>
      have hc : c ≠ 10 := this c r rfl
      simp [dropEol, hc]
  · simp [dropEol]
  · simp [dropEol]

theorem eol_head {eol u : Bytes} (h : EolText eol) : ∃ c r, eol ++ u = c :: r ∧ isEol c = true := by
  unfold EolText at h
  simp at h
  rcases h with rfl | rfl | rfl <;> exact ⟨_, _, rfl, by decide⟩

theorem xrefSubs_text {subs : List (Nat × List Ent)} {u : Bytes} (h : SubsText subs u) : ∀ (fuel : Nat) (x : XRef) (rest : Bytes),
    (u ++ rest).length < fuel → rest ≠ [] → NotStart Digit rest → ((∃ a n, subs = a ++ [(n, [])]) → NotStart (· = 10) rest) →
    xrefSubs fuel x (u ++ rest) = .ok (addAll x (numbered subs), rest) := by
  induction h with
  | nil =>
    intro fuel x rest hf hne hd _
    cases fuel with
    | zero => omega
    | succ fuel =>
      cases rest with
      | nil => exact absurd rfl hne
      | cons c r =>
        have : isDigit c = false := by
          cases hc : isDigit c with
          | false => rfl
          | true => exact absurd ((digit_iff c).mpr hc) (hd c r rfl)
        simp [xrefSubs, this, numbered, addAll]
  | cons n es subs t u ht hu ih =>
    intro fuel x rest hf hne hd hlast
    cases fuel with
    | zero => omega
    | succ fuel =>
      obtain ⟨fs, ns, eol, es, ub, h1, h2, h3, h4, h5, h6⟩ := ht
      have hfd := digits_isDigit h1
      have hnd := digits_isDigit h2
      have hlen : ((ub ++ u) ++ rest).length < fuel := by
        simp at hf ⊢
        have := List.length_pos_iff.mpr h1.1
        omega
      have hlast' : (∃ a n, subs = a ++ [(n, [])]) → NotStart (· = 10) rest := by
        rintro ⟨a, n, rfl⟩
        exact hlast ⟨(decVal fs, es) :: a, n, rfl⟩
      have hsub : xrefSubs fuel (addAll x (numberFrom (decVal fs) es)) (u ++ rest) =
          .ok (addAll (addAll x (numberFrom (decVal fs) es)) (numbered subs), rest) :=
        ih fuel _ rest (by simp at hlen ⊢; omega) hne hd hlast'
      have hrange : xrefRange (fs ++ (32 :: (ns ++ (eol ++ (ub ++ (u ++ rest)))))) =
          .ok (((decVal fs : Int), (decVal ns : Int)), ub ++ (u ++ rest)) := by
        unfold xrefRange
        rw [takeTo_hit fs 32 _ (fun c hc => by have := (digit_not_space c (hfd c hc)).2.2.1; simpa using this) rfl]
        simp only [List.tail_cons]
        obtain ⟨c, r, e, hc⟩ := eol_head (u := ub ++ (u ++ rest)) h3
        rw [e, takeTo_hit ns c r (fun c hc => (digit_not_space c (hnd c hc)).2.1) hc]
        simp only [pyInt_digits h1, pyInt_digits h2]
        rw [← e, dropEol_text h3]
        intro heq
        have h10 : ∀ c ∈ (b!"0123456789"), c ≠ 10 := by decide
        by_cases hub : ub = []
        · subst hub
          cases hu with
          | nil =>
            have := ents_nil h5 rfl
            subst this
            simpa using hlast ⟨[], decVal fs, rfl⟩
          | cons n' es' subs' t' u' ht' hu' =>
            obtain ⟨fs', ns', eol', es', ub', h1', h2', h3', h4', h5', h6'⟩ := ht'
            obtain ⟨c, t, e, hc⟩ := digits_head h1'
            rw [e]
            simp only [List.nil_append, List.append_assoc, List.cons_append]
            exact notStart_mk (digit_not_space c hc).2.2.2.2.2.2
        · cases ub with
          | nil => exact absurd rfl hub
          | cons c r =>
            have := h6 heq c r rfl
            rw [List.cons_append]
            exact notStart_mk this
      obtain ⟨c, t, e, hc⟩ := digits_head h1
      have e0 : fs ++ 32 :: (ns ++ (eol ++ ub)) ++ u ++ rest = fs ++ (32 :: (ns ++ (eol ++ (ub ++ (u ++ rest))))) := by simp
      rw [e0]
      have e1 : fs ++ (32 :: (ns ++ (eol ++ (ub ++ (u ++ rest))))) = c :: (t ++ (32 :: (ns ++ (eol ++ (ub ++ (u ++ rest)))))) := by rw [e]; rfl
      rw [e1, xrefSubs, if_pos hc, ← e1, hrange]
      simp only [Int.toNat_natCast]
      rw [h4, xrefEntries_text h5]
      simp only
      rw [hsub]
      simp [numbered, addAll]

theorem addAll_get (es : List (Nat × Ent)) (x : XRef) (n : Nat) :
    natGet (addAll x es).inUse n = (match (lastEnt es true n) with | some p => some ⟨p.1, p.2⟩ | none => natGet x.inUse n) ∧
    natGet (addAll x es).free n = (match (lastEnt es false n) with | some p => some ⟨p.1, p.2⟩ | none => natGet x.free n) ∧
    (addAll x es).compressed = x.compressed := by
  induction es generalizing x with
  | nil => exact ⟨rfl, rfl, rfl⟩
  | cons e es ih =>
    have hstep : addAll x (e :: es) = addAll (x.add e.1 ⟨e.2.offset, e.2.gen⟩ e.2.inUse) es := rfl
    obtain ⟨h1, h2, h3⟩ := ih (x.add e.1 ⟨e.2.offset, e.2.gen⟩ e.2.inUse)
    rw [hstep, h1, h2, h3]
    have hl : ∀ use, lastEnt (e :: es) use n = (lastEnt es use n).or (if e.1 = n ∧ e.2.inUse = use then some (e.2.offset, e.2.gen) else none) := by
      intro use
      unfold lastEnt
      rw [List.reverse_cons, List.find?_append]
      cases hf : es.reverse.find? (fun e => e.1 == n && e.2.inUse == use) with
      | some v => simp
      | none =>
        simp only [Option.none_or, Option.map_none, List.find?_cons, List.find?_nil]
        by_cases hc : e.1 = n ∧ e.2.inUse = use
        · simp [hc.1, hc.2]
        · rw [if_neg hc]
          have : (e.1 == n && e.2.inUse == use) = false := by
            rw [Bool.eq_false_iff]
            intro h
            simp at h
            exact hc h
          simp [this]
    rw [hl true, hl false]
    refine ⟨?_, ?_, ?_⟩
    · cases lastEnt es true n with
      | some p => simp
      | none =>
        cases hu : e.2.inUse
        · simp [XRef.add]
        · simp only [XRef.add, if_true, natGet_set]
          by_cases hn : e.1 = n
          · simp [hn]
          · simp [hn]
    · cases lastEnt es false n with
      | some p => simp
      | none =>
        cases hu : e.2.inUse
        · simp only [XRef.add]
          by_cases hn : e.1 = n
          · simp [hn, natGet_set]
          · simp [hn, natGet_set]
        · simp [XRef.add]
    · unfold XRef.add; split <;> rfl

/-! ### Cross-reference streams -/

theorem beBytes_length (w n : Nat) : (beBytes w n).length = w := by
  induction w generalizing n with
  | zero => rfl
  | succ w ih => simp [beBytes, ih]

theorem foldl_be (b : Bytes) (a : Nat) : b.foldl (fun a c => 256 * a + c.toNat) a = a * 256 ^ b.length + beVal b := by
  unfold beVal
  induction b generalizing a with
  | nil => simp
  | cons c b ih =>
    simp only [List.foldl_cons, List.length_cons]
    rw [ih, ih (256 * 0 + c.toNat), Nat.pow_succ]
    simp only [Nat.mul_zero, Nat.zero_add, Nat.add_mul, Nat.add_assoc]
    congr 1
    rw [Nat.mul_comm (256 ^ b.length) 256, ← Nat.mul_assoc, Nat.mul_comm 256 a]

theorem beVal_beBytes (w n : Nat) (h : n < 256 ^ w) : beVal (beBytes w n) = n := by
  induction w generalizing n with
  | zero => simp at h; subst h; rfl
  | succ w ih =>
    have hp : 0 < 256 ^ w := Nat.pow_pos (by omega)
    have hq : n / 256 ^ w < 256 := by
      rw [Nat.div_lt_iff_lt_mul hp, Nat.mul_comm]
      rw [Nat.pow_succ] at h
      exact h
    rw [beBytes]
    have : beVal (UInt8.ofNat (n / 256 ^ w) :: beBytes w (n % 256 ^ w)) =
        (beBytes w (n % 256 ^ w)).foldl (fun a c => 256 * a + c.toNat) (n / 256 ^ w) := by
      unfold beVal
      rw [List.foldl_cons]
      congr 1
      simp [UInt8.toNat_ofNat']
      exact hq
    rw [this, foldl_be, beBytes_length, ih _ (Nat.mod_lt _ hp)]
    rw [Nat.mul_comm]
    exact Nat.div_add_mod n (256 ^ w)

theorem row_length (w0 w1 w2 : Nat) (r : Row) : (r.text w0 w1 w2).length = w0 + w1 + w2 := by
  simp [Row.text, beBytes_length]; omega

theorem xrefCol_be (a b : Bytes) (w n : Nat) (h : n < 256 ^ w) : xrefCol (a ++ (beBytes w n ++ b)) a.length w = n := by
  unfold xrefCol
  split
  · rename_i hw; subst hw; simp at h; exact h.symm
  · rw [List.drop_left]
    have : (beBytes w n ++ b).take w = beBytes w n := by
      have := beBytes_length w n
      rw [List.take_append_of_le_length (by omega), List.take_of_length_le (by omega)]
    rw [this, beVal_beBytes w n h]

theorem xrefRow_text (w0 w1 w2 num : Nat) (x : XRef) (r : Row) (h : r.Fits w0 w1 w2) :
    xrefRow w0 w1 w2 num x (r.text w0 w1 w2) =
      if r.typ = 0 then { x with free := natSet x.free r.f1 ⟨0, r.f2⟩ }
      else if r.typ = 1 then { x with inUse := natSet x.inUse num ⟨r.f1, r.f2⟩ }
      else if r.typ = 2 then { x with compressed := natSet x.compressed r.f1 r.f2 }
      else x := by
  have c0 : xrefCol (r.text w0 w1 w2) 0 w0 = r.typ := xrefCol_be [] _ w0 r.typ h.1
  have c1 : xrefCol (r.text w0 w1 w2) w0 w1 = r.f1 := by
    have := xrefCol_be (beBytes w0 r.typ) (beBytes w2 r.f2) w1 r.f1 h.2.1
    rw [beBytes_length] at this
    exact this
  have c2 : xrefCol (r.text w0 w1 w2) (w0 + w1) w2 = r.f2 := by
    have := xrefCol_be (beBytes w0 r.typ ++ beBytes w1 r.f1) [] w2 r.f2 h.2.2
    simp only [List.length_append, beBytes_length, List.append_nil] at this
    rw [← this, Row.text, List.append_assoc]
  simp only [xrefRow, c0, c1, c2]

theorem xrefRows_text (w0 w1 w2 : Nat) (hw : 0 < w0 + w1 + w2) (rows : List Row) (hf : ∀ r ∈ rows, r.Fits w0 w1 w2) :
    ∀ (fuel num : Nat) (x : XRef), rows.length ≤ fuel →
    ∀ n, natGet (xrefRows w0 w1 w2 (w0 + w1 + w2) fuel num x (rows.flatMap (Row.text w0 w1 w2))).inUse n =
      match (if num ≤ n then rows[n - num]? else none) with
      | some r => if r.typ = 1 then some ⟨r.f1, r.f2⟩ else natGet x.inUse n
      | none => natGet x.inUse n := by
  induction rows with
  | nil =>
    intro fuel num x _ n
    cases fuel <;> simp [xrefRows]
  | cons r rows ih =>
    intro fuel num x hfu n
    cases fuel with
    | zero => simp at hfu
    | succ fuel =>
      have hl := row_length w0 w1 w2 r
      have hne : (r :: rows).flatMap (Row.text w0 w1 w2) ≠ [] := by
        intro h
        have := congrArg List.length h
        simp at this
        have h0 := this.1
        rw [h0] at hl
        simp at hl
        omega
      rw [xrefRows, if_neg hne, List.flatMap_cons]
      have ht : (r.text w0 w1 w2 ++ rows.flatMap (Row.text w0 w1 w2)).take (w0 + w1 + w2) = r.text w0 w1 w2 := by
        rw [← hl, List.take_left]
      have hd : (r.text w0 w1 w2 ++ rows.flatMap (Row.text w0 w1 w2)).drop (w0 + w1 + w2) = rows.flatMap (Row.text w0 w1 w2) := by
        rw [← hl, List.drop_left]
      rw [ht, hd, ih (fun r hr => hf r (by simp [hr])) fuel (num + 1) _ (by simp at hfu; omega) n]
      have hx : natGet (xrefRow w0 w1 w2 num x (r.text w0 w1 w2)).inUse n =
          if r.typ = 1 ∧ num = n then some ⟨r.f1, r.f2⟩ else natGet x.inUse n := by
        rw [xrefRow_text _ _ _ _ _ _ (hf r (by simp))]
        by_cases h0 : r.typ = 0
        · rw [if_pos h0, if_neg (fun h => by rw [h0] at h; cases h.1)]
        · rw [if_neg h0]
          by_cases h1 : r.typ = 1
          · rw [if_pos h1]
            simp only [natGet_set, h1, true_and]
          · rw [if_neg h1, if_neg (c := r.typ = 1 ∧ num = n) (fun h => h1 h.1)]
            split <;> rfl
      generalize xrefRow w0 w1 w2 num x (r.text w0 w1 w2) = y at hx ⊢
      rw [hx]
      by_cases hn : num = n
      · subst hn
        have e1 : ¬ num + 1 ≤ num := by omega
        simp only [e1, if_false, Nat.le_refl, if_true, Nat.sub_self, List.getElem?_cons_zero, and_true]
      · have e0 : (if r.typ = 1 ∧ num = n then some (⟨r.f1, r.f2⟩ : XEntry) else natGet x.inUse n) = natGet x.inUse n :=
          if_neg (fun h => hn h.2)
        rw [e0]
        by_cases hlt : num < n
        · have e : n - num = (n - (num + 1)) + 1 := by omega
          rw [if_pos (show num + 1 ≤ n by omega), if_pos (show num ≤ n by omega), e, List.getElem?_cons_succ]
        · rw [if_neg (show ¬ num + 1 ≤ n by omega), if_neg (show ¬ num ≤ n by omega)]

end PdfReader
