/-
  Decoding with a CMap.
-/
import Verif.Lemmas.CMapFile

namespace PdfReader

open Spec

/-- `bf` answers like the mapping `m`. -/
def Maps (bf : List MapEntry) (m : Bytes → Option Text) : Prop :=
  ∀ x, CodeOk x → mapGet bf x = answer (m x)

theorem maps_of_answers {bf : List MapEntry} {m : Bytes → Option Text} (h : ∀ x, CodeOk x → Answers bf x (m x)) : Maps bf m := by
  intro x hx
  have := h x hx []
  rw [List.append_nil] at this
  exact this

/-- What the decoder does with a string of an even number of digits. -/
def shows (m : Bytes → Option Text) (fb : Bytes → Res Text) : Bytes → Res Text
  | a :: b :: c :: d :: r =>
    match m [a, b] with
    | some t => (shows m fb (c :: d :: r)).map (t ++ ·)
    | none =>
      match m [a, b, c, d] with
      | some t => (shows m fb r).map (t ++ ·)
      | none =>
        match loneByte fb [a, b] with
        | .error e => .error e
        | .ok t => (shows m fb (c :: d :: r)).map (t ++ ·)
  | [a, b] => match m [a, b] with | some t => .ok t | none => fb [a, b]
  | _ => .ok []

theorem shows_nil (m : Bytes → Option Text) (fb : Bytes → Res Text) : shows m fb [] = .ok [] := rfl

theorem upHex_sub {x y : Bytes} (h : UpHex y) (hs : ∀ c ∈ x, c ∈ y) : UpHex x := fun c hc => h c (hs c hc)

theorem decodeLoop_shows {bf : List MapEntry} {m : Bytes → Option Text} (hm : Maps bf m) (fb : Bytes → Res Text) :
    ∀ (n : Nat) (s : Bytes) (fuel : Nat), s.length = 2 * n → UpHex s → 2 * n + 1 ≤ fuel →
      decodeLoop bf fb fuel [] (chunks2 s) = shows m fb s := by
  intro n
  induction n using Nat.strongRecOn with
  | ind n ih =>
    intro s fuel hl hs hf
    obtain ⟨f, rfl⟩ : ∃ f, fuel = f + 1 := ⟨fuel - 1, by omega⟩
    match s, hl, hs with
    | [], _, _ => rw [chunks2, decodeLoop, if_pos rfl, shows_nil]
    | [_], hl, _ => simp at hl; omega
    | [a, b], hl, hs =>
      have hm2 := hm [a, b] ⟨by simp, hs⟩
      simp only [List.length_cons, List.length_nil] at hl
      obtain ⟨f, rfl⟩ : ∃ f', f = f' + 1 := ⟨f - 1, by omega⟩
      rw [chunks2, chunks2, decodeLoop]
      dsimp only [List.nil_append]
      rw [hm2, shows]
      cases m [a, b] with
      | some t =>
        dsimp only [answer]
        rw [decodeLoop, if_pos rfl]
        simp
      | none =>
        dsimp only [answer]
        rw [if_pos (by simp), decodeLoop, if_neg (by simp)]
    | [_, _, _], hl, _ => simp at hl; omega
    | a :: b :: c :: d :: r, hl, hs =>
      have hm2 := hm [a, b] ⟨by simp, upHex_sub hs (by simp)⟩
      have hm4 := hm [a, b, c, d] ⟨by simp, upHex_sub hs (by simp)⟩
      simp only [List.length_cons] at hl
      obtain ⟨k, rfl⟩ : ∃ k, n = k + 2 := ⟨n - 2, by omega⟩
      obtain ⟨f, rfl⟩ : ∃ f', f = f' + 1 := ⟨f - 1, by omega⟩
      have i1 : ∀ fuel, 2 * (k + 1) + 1 ≤ fuel → decodeLoop bf fb fuel [] ([c, d] :: chunks2 r) = shows m fb (c :: d :: r) := by
        intro fuel hf
        exact ih (k + 1) (by omega) (c :: d :: r) fuel (by simp; omega) (upHex_sub hs (fun x hx => List.mem_cons_of_mem _ (List.mem_cons_of_mem _ hx))) hf
      have i2 : decodeLoop bf fb f [] (chunks2 r) = shows m fb r :=
        ih k (by omega) r f (by omega) (upHex_sub hs (fun x hx => List.mem_cons_of_mem _ (List.mem_cons_of_mem _ (List.mem_cons_of_mem _ (List.mem_cons_of_mem _ hx))))) (by omega)
      rw [chunks2, chunks2, decodeLoop]
      dsimp only [List.nil_append]
      rw [hm2, shows]
      cases m [a, b] with
      | some t =>
        dsimp only [answer]
        rw [i1 _ (by omega)]
        cases shows m fb (c :: d :: r) <;> rfl
      | none =>
        dsimp only [answer]
        rw [if_pos (by simp), decodeLoop]
        dsimp only [List.nil_append, List.cons_append]
        rw [hm4]
        cases m [a, b, c, d] with
        | some t =>
          dsimp only [answer]
          rw [i2]
          cases shows m fb r <;> rfl
        | none =>
          dsimp only [answer]
          rw [if_neg (by simp)]
          dsimp only [List.take, List.drop]
          rw [i1 _ (by omega)]
          cases loneByte fb [a, b] with
          | error e => rfl
          | ok t => cases shows m fb (c :: d :: r) <;> rfl

theorem chunks2_length (n : Nat) : ∀ (s : Bytes), s.length = 2 * n → (chunks2 s).length = n := by
  induction n with
  | zero =>
    intro s h
    have : s = [] := List.eq_nil_of_length_eq_zero (by omega)
    rw [this]
    rfl
  | succ n ih =>
    intro s h
    match s, h with
    | [_], h => simp at h; omega
    | a :: b :: r, h =>
      rw [chunks2, List.length_cons, ih r (by simp at h; omega)]

theorem cmapDecodeHex_shows {bf : List MapEntry} {m : Bytes → Option Text} (hm : Maps bf m) (fb : Bytes → Res Text) {s : Bytes} (hl : s.length % 2 = 0)
    (hs : UpHex s) : cmapDecodeHex bf fb s = shows m fb s := by
  obtain ⟨n, hn⟩ : ∃ n, s.length = 2 * n := ⟨s.length / 2, by omega⟩
  unfold cmapDecodeHex
  exact decodeLoop_shows hm fb n s _ hn hs (by rw [chunks2_length n s hn]; omega)

theorem shows_two {m : Bytes → Option Text} {fb : Bytes → Res Text} {a b : Byte} {t : Text} {r : Bytes} (h : m [a, b] = some t) (hr : r.length % 2 = 0) :
    shows m fb (a :: b :: r) = (shows m fb r).map (t ++ ·) := by
  match r, hr with
  | [], _ => rw [shows, h, shows_nil]; show _ = Except.ok (t ++ []); rw [List.append_nil]
  | [_], hr => simp at hr
  | c :: d :: r, _ => rw [shows, h]

theorem segs_even {m : Bytes → Option Text} (segs : List (Bytes × Text)) (h : Segments m segs) : (segs.flatMap (·.1)).length % 2 = 0 := by
  induction segs with
  | nil => rfl
  | cons q l ih =>
    rw [List.flatMap_cons, List.length_append]
    have := ih (fun x hx => h x (List.mem_cons_of_mem _ hx))
    rcases (h q List.mem_cons_self).2.2 with h | ⟨h, _⟩ <;> omega

theorem shows_segments {m : Bytes → Option Text} {fb : Bytes → Res Text} (segs : List (Bytes × Text)) (h : Segments m segs) (r : Bytes) (hr : r.length % 2 = 0) :
    shows m fb (segs.flatMap (·.1) ++ r) = (shows m fb r).map (segs.flatMap (·.2) ++ ·) := by
  induction segs with
  | nil =>
    show shows m fb r = (shows m fb r).map ([] ++ ·)
    cases shows m fb r <;> rfl
  | cons p segs ih =>
    obtain ⟨h1, h2, h3⟩ := h p List.mem_cons_self
    have h' : Segments m segs := fun q hq => h q (List.mem_cons_of_mem _ hq)
    have ih := ih h'
    have hev := segs_even segs h'
    rw [List.flatMap_cons, List.flatMap_cons]
    obtain ⟨x, t⟩ := p
    dsimp only at h1 h2 h3 ⊢
    have key : ∀ y : Res Text, (y.map (segs.flatMap (·.2) ++ ·)).map (t ++ ·) = y.map (t ++ segs.flatMap (·.2) ++ ·) := by
      intro y
      cases y with
      | error e => rfl
      | ok u =>
        show Except.ok (t ++ (segs.flatMap (·.2) ++ u)) = Except.ok (t ++ segs.flatMap (·.2) ++ u)
        rw [List.append_assoc]
    rcases h3 with h3 | ⟨h3, h4⟩
    · match x, h3 with
      | [a, b], _ =>
        show shows m fb (a :: b :: (segs.flatMap (·.1) ++ r)) = _
        rw [shows_two h2 (by rw [List.length_append]; omega), ih, key]
    · match x, h3 with
      | [a, b, c, d], _ =>
        show shows m fb (a :: b :: c :: d :: (segs.flatMap (·.1) ++ r)) = _
        rw [shows]
        simp only [List.take] at h4
        rw [h4, h2]
        dsimp only
        rw [ih, key]

theorem shows_lone {m : Bytes → Option Text} {fb : Bytes → Res Text} {a b c d : Byte} {r : Bytes} {t : Text} (h1 : m [a, b] = none) (h2 : m [a, b, c, d] = none)
    (h3 : loneByte fb [a, b] = .ok t) : shows m fb (a :: b :: c :: d :: r) = (shows m fb (c :: d :: r)).map (t ++ ·) := by
  rw [shows, h1, h2, h3]

theorem hexUpper_pairs (s : Bytes) : hexUpper s = s.flatMap hexPair := by
  induction s with
  | nil => rfl
  | cons c r ih =>
    rw [hexUpper, ih, List.flatMap_cons]
    have : [hexDigitUp (c.toNat / 16), hexDigitUp (c.toNat % 16)] = hexPair c :=
      forall_u8 (fun c => [hexDigitUp (c.toNat / 16), hexDigitUp (c.toNat % 16)] = hexPair c) (by decide +kernel) c
    rw [← this]
    rfl

theorem segs_upHex {m : Bytes → Option Text} (segs : List (Bytes × Text)) (h : Segments m segs) : UpHex (segs.flatMap (·.1)) := by
  intro c hc
  rw [List.mem_flatMap] at hc
  obtain ⟨p, hp, hc⟩ := hc
  exact (h p hp).1 c hc

theorem unitsOf_codeUnits (d : Bytes) (h : d.length % 4 = 0) : unitsOf d = codeUnits d := by
  generalize hn : d.length = n at h
  induction n using Nat.strongRecOn generalizing d with
  | ind n ih =>
    match d, hn with
    | [], _ => rw [unitsOf]; rfl
    | [_], hn => simp at hn; omega
    | [_, _], hn => simp at hn; omega
    | [_, _, _], hn => simp at hn; omega
    | a :: b :: c :: e :: r, hn =>
      simp only [List.length_cons] at hn
      rw [unitsOf, dif_neg (by simp), codeUnits]
      show hexValue [a, b, c, e] :: unitsOf r = _
      rw [ih r.length (by omega) r rfl (by omega)]

theorem utf16_bmp (us : List Nat) (h : ∀ u ∈ us, u < 0xD800 ∨ 0xDFFF < u) : utf16 us = us := by
  induction us with
  | nil => rfl
  | cons u us ih =>
    have ih := ih (fun x hx => h x (List.mem_cons_of_mem _ hx))
    cases us with
    | nil => rfl
    | cons v r =>
      rw [utf16, if_neg, ih]
      have := h u List.mem_cons_self
      omega

end PdfReader
