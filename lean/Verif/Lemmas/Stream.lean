/-
  Lemmas on stream bodies (base.py:413-484).
-/
import Verif.Lemmas.GrammarParse

namespace PdfReader
open Spec

theorem readN_append (a x : Bytes) : readN a.length (a ++ x) = .ok (a, x) := by
  unfold readN
  have : ¬ (a ++ x).length < a.length := by simp
  rw [if_neg this]; simp

theorem skipWs_append {w x : Bytes} (hw : ∀ c ∈ w, WS c) (hx : NotStart WS x) : skipWs (w ++ x) = x := by
  induction w with
  | nil =>
    cases x with
    | nil => rfl
    | cons c t =>
      have := notStart_cons hx
      rw [ws_iff] at this
      simp [skipWs, this]
  | cons c w ih =>
    have := (ws_iff c).mp (hw c (by simp))
    simp only [List.cons_append, skipWs, this, if_true]
    exact ih (fun c h => hw c (by simp [h]))

theorem afterStreamKw_lf (x : Bytes) : afterStreamKw (10 :: x) = x := rfl
theorem afterStreamKw_crlf (x : Bytes) : afterStreamKw (13 :: 10 :: x) = x := rfl

theorem streamBody_exact (d : List (Bytes × Obj)) (nl data w x : Bytes) (hnl : nl = [10] ∨ nl = [13, 10])
    (hw : ∀ c ∈ w, WS c) :
    streamBody d (.int data.length) (b!"stream" ++ (nl ++ (data ++ (w ++ (b!"endstream" ++ x))))) =
      .ok (.stream d data, x) := by
  unfold streamBody
  have h6 : readN 6 (b!"stream" ++ (nl ++ (data ++ (w ++ (b!"endstream" ++ x))))) =
    .ok (b!"stream", nl ++ (data ++ (w ++ (b!"endstream" ++ x)))) := readN_append (b!"stream") _
  rw [h6]
  simp only [ne_eq, not_true_eq_false, if_false]
  have hk : afterStreamKw (nl ++ (data ++ (w ++ (b!"endstream" ++ x)))) = data ++ (w ++ (b!"endstream" ++ x)) := by
    rcases hnl with h | h <;> subst h <;> rfl
  rw [hk]
  simp only [lengthOf, Int.toNat_natCast]
  rw [readN_append]
  simp only
  rw [skipWs_append (x := b!"endstream" ++ x) hw (notStart_mk (by rw [ws_iff]; decide))]
  have h9 : readN 9 (b!"endstream" ++ x) = .ok (b!"endstream", x) := readN_append (b!"endstream") _
  rw [h9]
  simp

theorem startsWith_iff (p s : Bytes) : startsWith p s = true ↔ ∃ t, s = p ++ t := by
  unfold startsWith
  rw [List.isPrefixOf_iff_prefix]
  constructor
  · rintro ⟨t, h⟩; exact ⟨t, h.symm⟩
  · rintro ⟨t, h⟩; exact ⟨t, h.symm⟩

/-- `splitOn1` finds the first occurrence. -/
theorem splitOn1_first (p : Bytes) (data x : Bytes)
    (hfirst : ∀ a b, data ++ (p ++ x) = a ++ (p ++ b) → data.length ≤ a.length) :
    splitOn1 p (data ++ (p ++ x)) = some (data, x) := by
  induction data with
  | nil =>
    rw [List.nil_append]
    cases hp : p with
    | nil =>
      rw [List.nil_append]
      cases x with
      | nil => rfl
      | cons c t => simp [splitOn1, startsWith]
    | cons c p' =>
      rw [List.cons_append, splitOn1]
      have : startsWith (c :: p') (c :: (p' ++ x)) = true := (startsWith_iff _ _).mpr ⟨x, rfl⟩
      rw [if_pos this]
      simp
  | cons c data ih =>
    rw [List.cons_append, splitOn1]
    have hn : ¬ startsWith p (c :: (data ++ (p ++ x))) = true := by
      rw [startsWith_iff]
      rintro ⟨t, ht⟩
      have := hfirst [] t (by rw [List.nil_append, ← ht]; rfl)
      simp at this
    rw [if_neg hn, ih]
    · rfl
    · intro a b hab
      have := hfirst (c :: a) b (by rw [List.cons_append, hab]; rfl)
      simpa using this

theorem dropWhile_append_all {P : Byte → Bool} (a b : Bytes) (ha : ∀ c ∈ a, P c = true)
    (hb : ∀ c t, b = c :: t → P c = false) : (a ++ b).dropWhile P = b := by
  induction a with
  | nil =>
    cases b with
    | nil => rfl
    | cons c t => simp [hb c t rfl]
  | cons c a ih =>
    rw [List.cons_append, List.dropWhile_cons, if_pos (ha c (by simp))]
    exact ih (fun c h => ha c (by simp [h]))

theorem rstripEol_spec (body eols : Bytes) (he : ∀ c ∈ eols, Eol c) (hb : ∀ c t, body = t ++ [c] → ¬ Eol c) :
    rstripEol (body ++ eols) = body := by
  unfold rstripEol
  rw [List.reverse_append, dropWhile_append_all]
  · simp
  · intro c hc
    exact (eol_iff c).mp (he c (by simpa using hc))
  · intro c t ht
    have : body = t.reverse ++ [c] := by
      have := congrArg List.reverse ht
      simpa using this
    have := hb c _ this
    rw [eol_iff] at this
    simpa using this

theorem streamBody_recover (d : List (Bytes × Obj)) (n : Int) (nl body eols w y x : Bytes)
    (hnl : nl = [10] ∨ nl = [13, 10])
    (he : ∀ c ∈ eols, Eol c) (hb : ∀ c t, body = t ++ [c] → ¬ Eol c)
    (hfirst : ∀ a b, (body ++ eols) ++ (b!"endstream" ++ x) = a ++ (b!"endstream" ++ b) →
      (body ++ eols).length ≤ a.length)
    (hn : n.toNat ≤ ((body ++ eols) ++ (b!"endstream" ++ x)).length)
    (hy : ((body ++ eols) ++ (b!"endstream" ++ x)).drop n.toNat = w ++ y) (hw : ∀ c ∈ w, WS c)
    (hyw : NotStart WS y) (hy9 : 9 ≤ y.length) (hye : y.take 9 ≠ b!"endstream") :
    streamBody d (.int n) (b!"stream" ++ (nl ++ ((body ++ eols) ++ (b!"endstream" ++ x)))) =
      .ok (.stream d body, x) := by
  generalize hfull : (body ++ eols) ++ (b!"endstream" ++ x) = full at *
  unfold streamBody
  have h6 : readN 6 (b!"stream" ++ (nl ++ full)) = .ok (b!"stream", nl ++ full) := readN_append (b!"stream") _
  rw [h6]
  simp only [ne_eq, not_true_eq_false, if_false]
  have hk : afterStreamKw (nl ++ full) = full := by
    rcases hnl with h | h <;> subst h <;> rfl
  rw [hk]
  simp only [lengthOf]
  have h1 : readN n.toNat full = .ok (full.take n.toNat, full.drop n.toNat) := by
    unfold readN; rw [if_neg (by omega)]
  rw [h1]
  simp only
  rw [hy, skipWs_append hw hyw]
  have h2 : readN 9 y = .ok (y.take 9, y.drop 9) := by
    unfold readN; rw [if_neg (by omega)]
  rw [h2]
  simp only [if_neg hye]
  rw [← hfull, splitOn1_first _ _ _ (by rw [hfull]; exact hfirst)]
  simp only
  rw [rstripEol_spec body eols he hb]

/-- A dictionary text followed by `stream`. -/
theorem parse_dict_stream (cfg : Cfg) (hc : cfg.NoDiv) {raw : List (Bytes × Obj)} {u s z : Bytes}
    (hu : Den cfg.refs (.ents raw) u) (hs : Sep s) :
    parseObject cfg (60 :: 60 :: (u ++ 62 :: 62 :: (s ++ (b!"stream" ++ z)))) =
      streamP cfg (dictOf raw) (b!"stream" ++ z) := by
  obtain ⟨f, r0, h1, h2⟩ := den_parse cfg hu (s ++ (b!"stream" ++ z)) []
  have hstep : objectP cfg (f + 1) (60 :: 60 :: (u ++ 62 :: 62 :: (s ++ (b!"stream" ++ z)))) =
      streamP cfg (dictOf raw) (b!"stream" ++ z) := by
    rw [objectP_start rfl, objBody_lt]
    unfold dictOrHex
    simp only [if_true]
    rw [h1]
    simp only
    rw [h2]
    simp only
    have hr : NotStart SepChar (b!"stream" ++ z) := by
      apply notStart_mk
      rintro (h | h)
      · rw [ws_iff] at h; cases h
      · cases h
    rw [skipSC_sep hs hr]
    simp only
    have : (b!"stream" ++ z).head? = some 115 := rfl
    rw [if_pos this, foldl_dictSet]
  have hne : objectP cfg (f + 1) (60 :: 60 :: (u ++ 62 :: 62 :: (s ++ (b!"stream" ++ z)))) ≠ .error .diverges := by
    rw [hstep]
    intro hd
    rcases dropErr (streamP_good cfg (dictOf raw) (b!"stream" ++ z)) hd with h | h | ⟨f, n, g, h1, h2⟩
    · rcases h with h | h <;> cases h
    · cases h
    · exact hc f n g h1 h2
  rw [← hstep]
  generalize 60 :: 60 :: (u ++ 62 :: 62 :: (s ++ (b!"stream" ++ z))) = inp at *
  rw [← objectP_eq_parse hc (fuel := max (f + 1) (2 * inp.length + 1)) (Nat.le_max_right _ _),
    objectP_more (Nat.le_max_left _ _) hne]

theorem dictGet_dictOf (raw : List (Bytes × Obj)) (k : Bytes) : dictGet (dictOf raw) k = lastVal raw k := by
  unfold dictOf
  have key : ∀ (ks : List Bytes) (g : Bytes → Option Obj), (∀ k ∈ ks, (g k).isSome) →
      (k ∉ ks → g k = none) →
      dictGet (ks.filterMap (fun k => (g k).map (fun v => (k, v)))) k = g k := by
    intro ks g hg hk
    induction ks with
    | nil => simp [dictGet, hk (by simp)]
    | cons k0 ks ih =>
      obtain ⟨v0, hv0⟩ := Option.isSome_iff_exists.mp (hg k0 (by simp))
      rw [List.filterMap_cons, hv0]
      simp only [Option.map_some, dictGet]
      by_cases h : k0 = k
      · subst h; rw [if_pos rfl, hv0]
      · rw [if_neg h]
        apply ih (fun k hk => hg k (by simp [hk]))
        intro hn
        exact hk (fun hm => (List.mem_cons.mp hm).elim (fun e => h e.symm) hn)
  apply key
  · intro k' hk'; exact lastVal_isSome (by simpa using hk')
  · intro hn
    unfold lastVal
    rw [Option.map_eq_none_iff, List.find?_eq_none]
    intro e he hek
    apply hn
    rw [List.mem_eraseDups]
    refine List.mem_map.mpr ⟨e, by simpa using he, by simpa using hek⟩

theorem keys_dictOf (raw : List (Bytes × Obj)) : (dictOf raw).map (·.1) = (raw.map (·.1)).eraseDups := by
  unfold dictOf
  have key : ∀ (ks : List Bytes) (g : Bytes → Option Obj), (∀ k ∈ ks, (g k).isSome) →
      (ks.filterMap (fun k => (g k).map (fun v => (k, v)))).map (·.1) = ks := by
    intro ks g hg
    induction ks with
    | nil => rfl
    | cons k0 ks ih =>
      obtain ⟨v0, hv0⟩ := Option.isSome_iff_exists.mp (hg k0 (by simp))
      rw [List.filterMap_cons, hv0]
      simp only [Option.map_some, List.map_cons]
      rw [ih (fun k hk => hg k (by simp [hk]))]
  apply key
  intro k' hk'
  exact lastVal_isSome (by simpa using hk')

end PdfReader
