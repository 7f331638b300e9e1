/-
  C25-C30: header, startxref, cross-reference tables and streams, trailer chain.
  Specification: Verif/Spec/Document.lean.
-/
import Verif.Lemmas.Chain

namespace PdfReader
open Spec

/-! ### C25 -/

theorem hdr_ne {v h : Bytes} (hh : Hdr v h) : 8 ≤ h.length ∧ h.length ≤ 22 := by
  rcases hdr_shape hh with ⟨h8, _⟩ | ⟨h22, _⟩ <;> omega

theorem append_ge {a b x y : Bytes} (e : a ++ x = b ++ y) (h : a.length ≤ b.length) : ∃ z, b = a ++ z ∧ x = z ++ y := by
  rcases List.append_eq_append_iff.mp e with ⟨c, h1, h2⟩ | ⟨c, h1, h2⟩
  · exact ⟨c, h1, h2⟩
  · have : c = [] := by
      have := congrArg List.length h1
      simp at this
      exact List.length_eq_zero_iff.mp (by omega)
    subst this
    exact ⟨[], by simpa using h1.symm, by simpa using h2.symm⟩

/-- C25: whatever precedes it (nothing, or anything ending in a line feed), the first header of the file, in
either form, gives the version, if it lies within the first 1024 bytes of a file of at least 22
bytes. -/
theorem C25_version (junk v h rest : Bytes) (hh : Hdr v h) (hj : LineStart junk)
    (hfirst : ∀ a h' b v', junk ++ (h ++ rest) = a ++ (h' ++ b) → Hdr v' h' → junk.length ≤ a.length)
    (hlim : junk.length + h.length ≤ 1024) (hlen : 22 ≤ (junk ++ (h ++ rest)).length) :
    pdfHeader (junk ++ (h ++ rest)) = .ok (v, junk.length) := by
  have hL := hdr_ne hh
  generalize hfile : junk ++ (h ++ rest) = file at *
  have hfl : file.length = junk.length + (h.length + rest.length) := by rw [← hfile]; simp
  let i0 := junk.length + h.length - 22
  have hi0 : i0 = junk.length + h.length - 22 := rfl
  have hwin : fileRead file i0 22 = junk.drop i0 ++ (h ++ rest.take (22 - (junk.length - i0) - h.length)) := by
    unfold fileRead
    rw [← hfile, List.drop_append_of_le_length (by omega), List.take_append, List.take_append]
    congr 1
    · exact List.take_of_length_le (by simp; omega)
    · simp only [List.length_drop]
      congr 1
      exact List.take_of_length_le (by omega)
  have inner : ∀ a hd b v', file = a ++ (hd ++ b) → Hdr v' hd →
      (a.length + hd.length < junk.length + h.length ∨ (a.length + hd.length ≤ junk.length + h.length ∧ hd.length < h.length)) → False := by
    intro a hd b v' e hv hl
    obtain ⟨z, h1, h2⟩ := append_ge (hfile.trans e) (hfirst a hd b v' e hv)
    subst h1
    simp at hl
    exact hdr_no_inner hh hv h2 (by omega)
  have hdrop : (junk.drop i0).length = junk.length - i0 := by simp
  have early : ∀ (pat : Bytes → Option Bytes), (∀ w v', pat w = some v' → ∃ h b, w = h ++ b ∧ Hdr v' h) →
      ∀ a' b', junk.drop i0 ++ (h ++ rest.take (22 - (junk.length - i0) - h.length)) = a' ++ b' →
      a'.length < (junk.drop i0).length → pat b' = none := by
    intro pat hpat a' b' e hlt
    cases hp : pat b' with
    | none => rfl
    | some v' =>
      obtain ⟨hd, b, rfl, hv⟩ := hpat _ _ hp
      rw [← hwin] at e
      obtain ⟨⟨b2, e2⟩, _, h3⟩ := fileRead_occ e
      have := hfirst _ _ _ _ e2 hv
      rw [h3, if_pos (by omega)] at this
      omega
  have hhit : headerIn (fileRead file i0 22) = some (junk.length - i0, v) := by
    unfold headerIn
    rw [hwin]
    cases hh with
    | pdf _ hv =>
      rw [search_first (pat := pdfAt) _ _ v (by simp) (pdfAt_iff.mpr ⟨hv, _, rfl⟩) true 0 ?_ (early _ (fun w v' => pdf_hdr))]
      · simp
      · rcases hj with rfl | ⟨a, rfl⟩
        · left; simp
        · right
          refine ⟨a.drop i0, ?_⟩
          rw [List.drop_append_of_le_length]
          have : (b!"%PDF-" ++ v).length = 8 := by simp [ver_length hv]
          rw [this] at hi0
          simp at hi0
          omega
    | ips u _ hu hv =>
      have hL : (b!"%IPS-Adobe-" ++ (u ++ (b!" PDF-" ++ v))).length = 22 := by simp [ver_length hu, ver_length hv]
      have e0 : junk.drop i0 = [] := by rw [List.drop_eq_nil_iff]; omega
      have hn : search pdfAt true 0 (junk.drop i0 ++ (b!"%IPS-Adobe-" ++ (u ++ (b!" PDF-" ++ v)) ++
          rest.take (22 - (junk.length - i0) - (b!"%IPS-Adobe-" ++ (u ++ (b!" PDF-" ++ v))).length))) = none := by
        apply search_none
        intro a b e
        cases hp : pdfAt b with
        | none => rfl
        | some v' =>
          obtain ⟨hv', b', rfl⟩ := pdfAt_iff.mp hp
          rw [← hwin] at e
          obtain ⟨⟨b2, e2⟩, h2, h3⟩ := fileRead_occ e
          have h8 : (b!"%PDF-" ++ v').length = 8 := by simp [ver_length hv']
          refine (inner _ _ _ _ e2 (.pdf v' hv') (Or.inr ⟨?_, by omega⟩)).elim
          rw [h3, if_pos (by omega)]
          omega
      rw [hn, Option.none_or, search_first (pat := ipsAt) _ _ v (by simp) (ipsAt_iff.mpr ⟨u, hu, hv, _, rfl⟩) true 0
        (Or.inl ⟨e0, rfl⟩) (early _ (fun w v' => ips_hdr))]
      simp
  unfold pdfHeader
  rw [if_neg (by omega), headerLoop_hit hhit 1002 0 (by omega) (by omega) ?_ (by omega)]
  · congr 2; omega
  · intro j _ hjlt
    cases hq : headerIn (fileRead file j 22) with
    | none => rfl
    | some q =>
      obtain ⟨a, hd, b, e, hv, hl, _⟩ := window_hdr (k := q.1) (v := q.2) hq
      exact (inner a hd b _ e hv (Or.inl (by omega))).elim

/-- C25: a header that is the only one is found even in the middle of a line, if 22 bytes follow from its
start within the file and the first 1024 bytes. -/
theorem C25_version_midline (junk v h rest : Bytes) (hh : Hdr v h)
    (huniq : ∀ a h' b v', junk ++ (h ++ rest) = a ++ (h' ++ b) → Hdr v' h' → a.length = junk.length)
    (hlim : junk.length ≤ 1002) (hlen : 22 ≤ (h ++ rest).length) :
    pdfHeader (junk ++ (h ++ rest)) = .ok (v, junk.length) := by
  have hL := hdr_ne hh
  have hwin : fileRead (junk ++ (h ++ rest)) junk.length 22 = h ++ rest.take (22 - h.length) := by
    unfold fileRead
    rw [List.drop_left, List.take_append, List.take_of_length_le (by omega)]
  have hhit : headerIn (fileRead (junk ++ (h ++ rest)) junk.length 22) ≠ none := by
    rw [hwin]
    unfold headerIn
    cases hh with
    | pdf _ hv =>
      have := search_first (pat := pdfAt) [] (b!"%PDF-" ++ v ++ rest.take (22 - (b!"%PDF-" ++ v).length)) v (by simp)
        (pdfAt_iff.mpr ⟨hv, _, rfl⟩) true 0 (Or.inl ⟨rfl, rfl⟩) (by simp)
      simp only [List.nil_append] at this
      rw [this]; simp
    | ips u _ hu hv =>
      have := search_first (pat := ipsAt) [] (b!"%IPS-Adobe-" ++ (u ++ (b!" PDF-" ++ v)) ++ rest.take (22 - (b!"%IPS-Adobe-" ++ (u ++ (b!" PDF-" ++ v))).length)) v (by simp)
        (ipsAt_iff.mpr ⟨u, hu, hv, _, rfl⟩) true 0 (Or.inl ⟨rfl, rfl⟩) (by simp)
      simp only [List.nil_append] at this
      rw [this]
      cases search pdfAt true 0 _ <;> simp
  simp only [List.length_append] at hlen
  unfold pdfHeader
  rw [if_neg (by simp; omega)]
  obtain ⟨v', off, h'⟩ := headerLoop_finds hhit (by simp; omega) 1002 0 (by omega) (by omega)
  obtain ⟨a, hd, b, e, hl, hv, _⟩ := headerLoop_sound _ _ h' (Nat.zero_le _)
  have := huniq a hd b v' e hv
  obtain ⟨z, h1, h2⟩ := append_ge e (by omega)
  have : z = [] := by
    have := congrArg List.length h1
    simp at this
    exact List.length_eq_zero_iff.mp (by omega)
  subst this
  rw [h', ← hl, ‹a.length = _›, hdr_version_unique hh hv h2]

/-- C25: what is returned is a header of the file at the offset returned, in the first 1024 bytes. -/
theorem C25_sound (file v : Bytes) (off : Nat) (h : pdfHeader file = .ok (v, off)) :
    ∃ a hd b, file = a ++ (hd ++ b) ∧ a.length = off ∧ Hdr v hd ∧ off + hd.length ≤ 1024 := by
  unfold pdfHeader at h
  split at h
  · cases h
  · exact headerLoop_sound 1002 0 h (Nat.zero_le _)

/-- C25: without a header in the first 1024 bytes a ParserException is raised. -/
theorem C25_no_header (file : Bytes) (hlen : 22 ≤ file.length)
    (hno : ∀ a h b v, file = a ++ (h ++ b) → Hdr v h → 1024 < a.length + h.length) :
    pdfHeader file = .error .parser := by
  unfold pdfHeader
  rw [if_neg (by omega)]
  apply headerLoop_miss
  intro j hj
  cases hq : headerIn (fileRead file j 22) with
  | none => rfl
  | some q =>
    obtain ⟨a, hd, b, e, hv, hl, _⟩ := window_hdr (k := q.1) (v := q.2) hq
    have := hno a hd b _ e hv
    omega

/-- C25: a file of fewer than 22 bytes is a TypeError, even if it has a header. -/
theorem C25_tiny_file (file : Bytes) (h : file.length < 22) : pdfHeader file = .error .typeError := by
  unfold pdfHeader; rw [if_pos h]

theorem hdr_pos {file a h b v : Bytes} (e : file = a ++ (h ++ b)) (hh : Hdr v h) :
    a.length < file.length ∧ ((pdfAt (file.drop a.length)).isSome ∨ (ipsAt (file.drop a.length)).isSome) := by
  have hL := hdr_ne hh
  refine ⟨by rw [e]; simp; omega, ?_⟩
  rw [e, List.drop_left]
  cases hh with
  | pdf _ hv => left; rw [pdfAt_iff.mpr ⟨hv, b, rfl⟩]; rfl
  | ips u _ hu hv => right; rw [ipsAt_iff.mpr ⟨u, hu, hv, b, rfl⟩]; rfl

/-- The hypotheses of C25 are met by a file with a comment line before its header. -/
example : pdfHeader (b!"%some custom heading\n%PDF-1.5\nblablabla") = .ok (b!"1.5", 21) :=
  C25_version (b!"%some custom heading\n") (b!"1.5") (b!"%PDF-1.5") (b!"\nblablabla")
    (.pdf _ ⟨49, 53, by rw [digit_iff]; decide, by rw [digit_iff]; decide, rfl⟩) (Or.inr ⟨b!"%some custom heading", rfl⟩)
    (by
      intro a h' b v' e hh
      obtain ⟨h1, h2⟩ := hdr_pos e hh
      have : ∀ k : Fin 21, ¬ ((pdfAt ((b!"%some custom heading\n%PDF-1.5\nblablabla").drop k)).isSome ∨ (ipsAt ((b!"%some custom heading\n%PDF-1.5\nblablabla").drop k)).isSome) := by
        decide +kernel
      exact Nat.le_of_not_lt (fun h => this ⟨a.length, h⟩ h2))
    (by decide) (by decide)

/-- The first header does not win when it is in the middle of a line and a second one starts a line. -/
theorem C25_midline_counterexample :
    pdfHeader (b!"x%PDF-1.4\n%PDF-1.5\nabcdefgh") = .ok (b!"1.5", 10) := by decide +kernel

/-! ### C26 -/

/-- C26: the offset used is the number after the last `startxref` before the last `%%EOF`, whatever the rest of
the file is; `%%EOF` must be in the last 1023 bytes, `startxref` not at the very beginning of the file,
and a file on disk must have at least 1024 bytes. -/
theorem C26_last_startxref (clamps : Bool) (body s ds r tail : Bytes) (hbody : body ≠ [])
    (hs : Sep s) (hd : Digits ds) (hr : NotStart (fun c => Digit c ∨ c = 46) (r ++ (b!"%%EOF" ++ tail)))
    (htail : tail.length ≤ 1018)
    (heof : ∀ k, OccursAt (b!"%%EOF") (body ++ (b!"startxref" ++ (s ++ (ds ++ (r ++ (b!"%%EOF" ++ tail)))))) k →
      k ≤ (body ++ (b!"startxref" ++ (s ++ (ds ++ r)))).length)
    (hsx : ∀ k, OccursAt (b!"startxref") (body ++ (b!"startxref" ++ (s ++ (ds ++ (r ++ (b!"%%EOF" ++ tail)))))) k →
      k + 9 ≤ (body ++ (b!"startxref" ++ (s ++ (ds ++ r)))).length → k ≤ body.length)
    (hbig : clamps = true ∨ 1024 ≤ (body ++ (b!"startxref" ++ (s ++ (ds ++ (r ++ (b!"%%EOF" ++ tail)))))).length) :
    xrefOffset clamps (body ++ (b!"startxref" ++ (s ++ (ds ++ (r ++ (b!"%%EOF" ++ tail)))))) = .ok (decVal ds) := by
  have hb0 : 0 < body.length := List.length_pos_iff.mpr hbody
  generalize hfile : body ++ (b!"startxref" ++ (s ++ (ds ++ (r ++ (b!"%%EOF" ++ tail))))) = file at *
  have hfl : file.length = body.length + (9 + (s.length + (ds.length + (r.length + (5 + tail.length))))) := by
    rw [← hfile]; simp; omega
  have hK : (body ++ (b!"startxref" ++ (s ++ (ds ++ r)))).length = body.length + (9 + (s.length + (ds.length + r.length))) := by
    simp; omega
  have h1 : OccursAt (b!"%%EOF") file (body.length + (9 + (s.length + (ds.length + r.length)))) := by
    refine ⟨body ++ (b!"startxref" ++ (s ++ (ds ++ r))), tail, ?_, hK⟩
    rw [← hfile]; simp
  have h2 : OccursAt (b!"startxref") file body.length := ⟨body, _, hfile.symm, rfl⟩
  rw [hK] at heof hsx
  have hd0 : 0 < ds.length := List.length_pos_iff.mpr hd.1
  unfold xrefOffset seekEof
  rw [if_neg (by rintro ⟨a, b⟩; rcases hbig with h | h; · rw [h] at b; cases b
                 · omega), if_neg (by omega),
    eofBack_hit h1 (by omega) 1019 _ (by omega) (by omega) (by omega) heof]
  simp only
  rw [if_neg (by omega), findBack_hit (K := body.length + (9 + (s.length + (ds.length + r.length))) - 9) h2 hb0 _ (by omega) (by omega) (by omega)
    (fun j hj hle => hsx j hj (by omega))]
  simp only
  have hdrop : file.drop (body.length + 9) = s ++ (ds ++ (r ++ (b!"%%EOF" ++ tail))) := by
    rw [← hfile, List.drop_append]
    simp
  obtain ⟨c, t, e, hc⟩ := digits_head hd
  have hns : NotStart SepChar (ds ++ (r ++ (b!"%%EOF" ++ tail))) := by
    rw [e, List.cons_append]
    exact objStart_notSep (digit_objStart c hc)
  rw [hdrop, skipSC_sep hs hns]
  simp only
  rw [nonNegInt_digits hd (fun c t e h => hr c t e (Or.inl h)) (fun c t e h => hr c t e (Or.inr h))]

/-- C26: whatever is returned is a number read after the last `startxref` that ends before the last `%%EOF`. -/
theorem C26_sound (clamps : Bool) (file : Bytes) (n : Nat) (h : xrefOffset clamps file = .ok n) :
    ∃ k s r r', OccursAt (b!"%%EOF") file k ∧ (∀ j, OccursAt (b!"%%EOF") file j → j ≤ k) ∧ file.length ≤ k + 1023 ∧
      OccursAt (b!"startxref") file s ∧ s + 9 ≤ k ∧ (∀ j, OccursAt (b!"startxref") file j → j + 9 ≤ k → j ≤ s) ∧
      skipSC false (file.drop (s + 9)) = .ok r ∧ nonNegInt r = .ok (n, r') := by
  unfold xrefOffset seekEof at h
  split at h
  · cases h
  rename_i k hk
  split at hk
  · cases hk
  split at hk
  · cases hk
  split at hk
  · rename_i k' he
    cases hk
    obtain ⟨h1, h2, h3, h4, h5⟩ := eofBack_sound _ _ _ (by omega) he
    split at h
    · cases h
    split at h
    · cases h
    rename_i s hs
    obtain ⟨g1, g2, g3, g4⟩ := findBack_sound _ _ (by omega) hs
    split at h
    · cases h
    rename_i r hr
    split at h
    · cases h
    rename_i n' r' hn
    cases h
    refine ⟨k, s, r, r', h1, ?_, by omega, g1, by omega, fun j hj hle => g4 j hj (by omega), hr, hn⟩
    intro j hj
    by_cases hle : j ≤ file.length - 5
    · exact h5 j hj hle
    · obtain ⟨a, b, e, hl⟩ := hj
      have := congrArg List.length e
      simp at this
      omega
  · cases hk

/-- C26: if there is no `startxref` before the last `%%EOF`, but at the very beginning of the file, a ParserException is raised. -/
theorem C26_no_startxref (clamps : Bool) (file : Bytes) (k : Nat) (hk : OccursAt (b!"%%EOF") file k) (hlast : ∀ j, OccursAt (b!"%%EOF") file j → j ≤ k)
    (hnear : file.length ≤ k + 1023) (h9 : 9 ≤ k) (hno : ∀ j, OccursAt (b!"startxref") file j → j + 9 ≤ k → j = 0) (hbig : clamps = true ∨ 1024 ≤ file.length) :
    xrefOffset clamps file = .error .parser := by
  have hkl : k + 5 ≤ file.length := by
    obtain ⟨a, b, e, hl⟩ := hk
    have := congrArg List.length e
    simp at this
    omega
  unfold xrefOffset seekEof
  rw [if_neg (by rintro ⟨a, b⟩; rcases hbig with h | h; · rw [h] at b; cases b
                 · omega), if_neg (by omega),
    eofBack_hit hk (by omega) 1019 _ (by omega) (by omega) (by omega) hlast]
  simp only
  rw [if_neg (by omega)]
  cases hf : findBack file (k - 9) with
  | none => rfl
  | some r =>
    obtain ⟨h1, h2, h3, _⟩ := findBack_sound _ _ (by omega) hf
    have := hno r h1 (by omega)
    omega

/-- C26: a file on disk of fewer than 1024 bytes cannot be opened, whatever it contains. -/
theorem C26_small_file_on_disk (file : Bytes) (h : file.length < 1024) : xrefOffset false file = .error .osError := by
  unfold xrefOffset seekEof
  rw [if_pos ⟨h, rfl⟩]

theorem occurs_decide {pat file : Bytes} {k : Nat} (h : OccursAt pat file k) (hp : pat ≠ []) :
    k < file.length ∧ startsWith pat (file.drop k) = true := by
  obtain ⟨a, b, e, hl⟩ := id h
  have h1 := congrArg List.length e
  have h2 := List.length_pos_iff.mpr hp
  simp at h1
  exact ⟨by omega, (startsWith_drop (by omega)).mpr h⟩

/-- The hypotheses of C26 are met by a file with two `startxref`, two `%%EOF` and comments. -/
example : xrefOffset true (b!"startxref 7 %%EOF\nstartxref\r%comment\n9\n%c\n%%EOF\n") = .ok 9 := by
  have hsep : Sep (b!"\r%comment\n") :=
    .ws 13 _ (by simp [WS]) (.comment (b!"comment") 10 [] (by simp [Eol]) (Or.inl rfl) .nil)
  have := C26_last_startxref true (b!"startxref 7 %%EOF\n") (b!"\r%comment\n") (b!"9") (b!"\n%c\n") (b!"\n")
    (by decide) hsep ⟨by decide, by simp [Digit]⟩
    (notStart_mk (by rintro (h | h); · rw [digit_iff] at h; revert h; decide
                     · revert h; decide))
    (by decide)
    (by intro k h
        obtain ⟨h1, h2⟩ := occurs_decide h (by decide)
        have : ∀ k : Fin 48, startsWith (b!"%%EOF") ((b!"startxref 7 %%EOF\nstartxref\r%comment\n9\n%c\n%%EOF\n").drop k) = true → k.val ≤ 42 := by decide +kernel
        exact this ⟨k, h1⟩ h2)
    (by intro k h h3
        obtain ⟨h1, h2⟩ := occurs_decide h (by decide)
        have : ∀ k : Fin 48, startsWith (b!"startxref") ((b!"startxref 7 %%EOF\nstartxref\r%comment\n9\n%c\n%%EOF\n").drop k) = true → k.val ≤ 18 := by decide +kernel
        exact this ⟨k, h1⟩ h2)
    (Or.inl rfl)
  simpa [decVal] using this

/-- The file of the documentation without `startxref`. -/
example : xrefOffset true (b!"%PDF-1.6\nxref\r%comment\n9\n%comment\n%%EOF") = .error .parser := by
  refine C26_no_startxref true _ 34 ⟨b!"%PDF-1.6\nxref\r%comment\n9\n%comment\n", [], by decide, by decide⟩ ?_ (by decide) (by decide) ?_ (Or.inl rfl)
  · intro j h
    obtain ⟨h1, h2⟩ := occurs_decide h (by decide)
    have : ∀ k : Fin 39, startsWith (b!"%%EOF") ((b!"%PDF-1.6\nxref\r%comment\n9\n%comment\n%%EOF").drop k) = true → k.val ≤ 34 := by decide +kernel
    exact this ⟨j, h1⟩ h2
  · intro j h _
    obtain ⟨h1, h2⟩ := occurs_decide h (by decide)
    have : ∀ k : Fin 39, startsWith (b!"startxref") ((b!"%PDF-1.6\nxref\r%comment\n9\n%comment\n%%EOF").drop k) = true → k.val = 0 := by decide +kernel
    exact this ⟨j, h1⟩ h2

/-! ### C27 -/

/-- C27: a table of any number of subsections with any number of entries is read to its end, and afterwards every
object number has the offset and generation of its last entry, entry `i` of a subsection starting at
`n` counting for object `n + i`; nothing else is listed. -/
theorem C27_table (s u rest : Bytes) (subs : List (Nat × List Ent)) (hs : Sep s) (h : SubsText subs u) (hne : subs ≠ [])
    (hr : rest ≠ []) (hd : NotStart Digit rest) (hlast : (∃ a n, subs = a ++ [(n, [])]) → NotStart (· = 10) rest) :
    ∃ x, directXref (b!"xref" ++ (s ++ (u ++ rest))) = .ok (x, rest) ∧
      (∀ n, (natGet x.inUse n).map (fun e => (e.offset, e.gen)) = lastEnt (numbered subs) true n) ∧
      (∀ n, (natGet x.free n).map (fun e => (e.offset, e.gen)) = lastEnt (numbered subs) false n) ∧
      x.compressed = [] := by
  have hns : NotStart SepChar (u ++ rest) := by
    cases h with
    | nil => exact absurd rfl hne
    | cons n es subs t u ht hu =>
      obtain ⟨fs, ns, eol, es, ub, h1, h2, h3, h4, h5, h6⟩ := ht
      obtain ⟨c, t, e, hc⟩ := digits_head h1
      rw [e]
      simp only [List.cons_append]
      exact objStart_notSep (digit_objStart c hc)
  refine ⟨addAll {} (numbered subs), ?_, ?_, ?_, ?_⟩
  · unfold directXref
    have := readN_append (b!"xref") (s ++ (u ++ rest))
    simp only [List.length_cons, List.length_nil] at this
    rw [this]
    simp only [if_true, skipSC_sep hs hns]
    exact xrefSubs_text h _ _ _ (by omega) hr hd hlast
  · intro n
    rw [(addAll_get _ _ n).1]
    cases lastEnt (numbered subs) true n <;> rfl
  · intro n
    rw [(addAll_get _ _ n).2.1]
    cases lastEnt (numbered subs) false n <;> rfl
  · exact (addAll_get _ _ 0).2.2

/-- The numbering in the specification, spelled out. -/
theorem C27_numbering (n : Nat) (es : List Ent) (i : Nat) (h : i < es.length) : (numberFrom n es)[i]? = some (n + i, es[i]) := by
  induction es generalizing n i with
  | nil => simp at h
  | cons e es ih =>
    cases i with
    | zero => rfl
    | succ i =>
      simp at h
      simp only [numberFrom, List.getElem?_cons_succ, List.getElem_cons_succ]
      rw [ih _ _ h]
      congr 2
      omega

/-- Hypotheses of C27: two subsections, one of them empty of its own line ends. -/
theorem C27_example_text : SubsText [(0, [⟨0, 65535, false⟩, ⟨16, 0, true⟩]), (7, [⟨99, 1, true⟩])]
    (b!"0 2\n0000000000 65535 f\r\n0000000016 00000 n \n7 1\r0000000099 00001 n\r\n") := by
  have dg : ∀ ds : Bytes, (ds ≠ [] ∧ ∀ c ∈ ds, isDigit c = true) → Digits ds := fun ds h => ⟨h.1, fun c hc => (digit_iff c).mpr (h.2 c hc)⟩
  have e1 : EntText ⟨0, 65535, false⟩ (b!"0000000000 65535 f\r\n") :=
    .mk (b!"0000000000") (b!"65535") false [13, 10] (dg _ (by decide)) rfl (dg _ (by decide)) rfl (by decide)
  have e2 : EntText ⟨16, 0, true⟩ (b!"0000000016 00000 n \n") :=
    .mk (b!"0000000016") (b!"00000") true [32, 10] (dg _ (by decide)) rfl (dg _ (by decide)) rfl (by decide)
  have e3 : EntText ⟨99, 1, true⟩ (b!"0000000099 00001 n\r\n") :=
    .mk (b!"0000000099") (b!"00001") true [13, 10] (dg _ (by decide)) rfl (dg _ (by decide)) rfl (by decide)
  exact .cons _ _ _ (b!"0 2\n0000000000 65535 f\r\n0000000016 00000 n \n") (b!"7 1\r0000000099 00001 n\r\n")
    (.mk (b!"0") (b!"2") (b!"\n") _ _ (dg _ (by decide)) (dg _ (by decide)) (by unfold EolText; decide) rfl
      (.cons _ _ _ _ e1 (.cons _ _ _ [] e2 .nil)) (by intro h; cases h))
    (.cons _ _ _ (b!"7 1\r0000000099 00001 n\r\n") []
      (.mk (b!"7") (b!"1") (b!"\r") _ (b!"0000000099 00001 n\r\n") (dg _ (by decide)) (dg _ (by decide)) (by unfold EolText; decide) rfl
        (.cons _ _ _ [] e3 .nil) (fun _ => notStart_mk (by decide))) .nil)

example : ∃ x, directXref (b!"xref\n0 2\n0000000000 65535 f\r\n0000000016 00000 n \n7 1\r0000000099 00001 n\r\ntrailer") = .ok (x, b!"trailer") ∧
    natGet x.inUse 7 = some ⟨99, 1⟩ ∧ natGet x.inUse 1 = some ⟨16, 0⟩ ∧ natGet x.free 0 = some ⟨0, 65535⟩ ∧ natGet x.inUse 0 = none := by
  obtain ⟨x, h1, h2, h3, _⟩ := C27_table (b!"\n") _ (b!"trailer") _ (.ws 10 [] (by simp [WS]) .nil) C27_example_text (by simp) (by simp)
    (notStart_mk (by rw [digit_iff]; decide)) (fun _ => notStart_mk (by decide))
  have key : ∀ (o : Option XEntry) (a b : Nat), o.map (fun e => (e.offset, e.gen)) = some (a, b) → o = some ⟨a, b⟩ := by
    intro o a b h
    cases o with
    | none => cases h
    | some e => cases e; simp at h; simp [h]
  refine ⟨x, h1, key _ _ _ (h2 7), key _ _ _ (h2 1), key _ _ _ (h3 0), ?_⟩
  have := h2 0
  rw [show lastEnt (numbered [(0, [⟨0, 65535, false⟩, ⟨16, 0, true⟩]), (7, [⟨99, 1, true⟩])]) true 0 = none from rfl] at this
  simpa using this

/-! ### C28 -/

/-- C28, in-use entries: for every width vector and every list of rows that fit it, a cross-reference stream whose
`Index` is one range starting at `first` (or absent: 0) lists object `first + i` in use exactly when row
`i` has type 1, with the offset and generation written in the row.
Missing: free and compressed entries, an absent type field (`W[0] = 0`), and further ranges of `Index`
are read wrongly (counterexamples below). -/
theorem C28_in_use_partial (d : List (Bytes × Obj)) (first w0 w1 w2 : Nat) (rows : List Row)
    (hidx : (∃ cnt, dictGet d (b!"Index") = some (.arr [.int first, cnt])) ∨
      (dictGet d (b!"Index") = none ∧ first = 0 ∧ ∃ sz, dictGet d (b!"Size") = some sz))
    (hW : dictGet d (b!"W") = some (.arr [.int w0, .int w1, .int w2])) (hw : 0 < w0 + w1 + w2)
    (hf : ∀ r ∈ rows, r.Fits w0 w1 w2) :
    ∃ x, xrefFromStream d (rows.flatMap (Row.text w0 w1 w2)) = .ok x ∧
      (∀ i (h : i < rows.length), natGet x.inUse (first + i) =
        if rows[i].typ = 1 then some ⟨rows[i].f1, rows[i].f2⟩ else none) ∧
      (∀ n, n < first ∨ first + rows.length ≤ n → natGet x.inUse n = none) := by
  have h1 : xrefFirst d = .ok first := by
    unfold xrefFirst
    rcases hidx with ⟨cnt, h⟩ | ⟨h, rfl, sz, h2⟩
    · rw [h]
      simp only
      rw [if_neg (by omega)]
      simp
    · rw [h, h2]
      simp [truthy]
  have h2 : natsOf [.int (w0 : Int), .int w1, .int w2] = some [w0, w1, w2] := by
    simp only [natsOf]
    rw [if_neg (by omega), if_neg (by omega), if_neg (by omega)]
    simp
  have hlen : rows.length ≤ (rows.flatMap (Row.text w0 w1 w2)).length := by
    clear hf
    induction rows with
    | nil => simp
    | cons r rows ih =>
      rw [List.flatMap_cons, List.length_append, row_length, List.length_cons]
      omega
  have hget := xrefRows_text w0 w1 w2 hw rows hf _ first {} hlen
  refine ⟨xrefRows w0 w1 w2 (w0 + w1 + w2) (rows.flatMap (Row.text w0 w1 w2)).length first {} (rows.flatMap (Row.text w0 w1 w2)), ?_, ?_, ?_⟩
  · unfold xrefFromStream
    rw [h1, hW]
    simp only [h2]
    exact if_neg (show ¬ (w0 + w1 + w2 = 0) by omega)
  · intro i h
    rw [hget, if_pos (by omega), Nat.add_sub_cancel_left, List.getElem?_eq_getElem h]
    simp [natGet]
  · intro n hn
    rw [hget]
    rcases hn with hn | hn
    · rw [if_neg (by omega)]; rfl
    · rw [if_pos (by omega), List.getElem?_eq_none (by omega)]; rfl

/-- Hypotheses of C28: three rows with widths 1 2 1. -/
example : ∃ x, xrefFromStream [(b!"W", .arr [.int 1, .int 2, .int 1]), (b!"Size", .int 3)]
    ([0, 0, 0, 255] ++ [1, 1, 2, 0] ++ [2, 0, 9, 0]) = .ok x ∧ natGet x.inUse 1 = some ⟨258, 0⟩ := by
  obtain ⟨x, h1, h2, _⟩ := C28_in_use_partial [(b!"W", .arr [.int 1, .int 2, .int 1]), (b!"Size", .int 3)] 0 1 2 1
    [⟨0, 0, 255⟩, ⟨1, 258, 0⟩, ⟨2, 9, 0⟩] (Or.inr ⟨rfl, rfl, _, rfl⟩) rfl (by omega) (by simp [Row.Fits])
  exact ⟨x, h1, h2 1 (by simp)⟩

/-- C28 is false for compressed objects: object 5, the first of the object stream 9, is listed as the object 9. -/
theorem C28_compressed_counterexample :
    xrefFromStream [(b!"W", .arr [.int 1, .int 1, .int 1]), (b!"Index", .arr [.int 5, .int 1])] [2, 9, 0] =
      .ok { compressed := [(9, 0)] } := by decide +kernel

/-- C28 is false for free entries: row for object 5 with next free object 0 is listed as object 0. -/
theorem C28_free_counterexample :
    xrefFromStream [(b!"W", .arr [.int 1, .int 1, .int 1]), (b!"Index", .arr [.int 5, .int 1])] [0, 0, 7] =
      .ok { free := [(0, ⟨0, 7⟩)] } := by decide +kernel

/-- C28 is false when the type field is absent: the default type is 1 (in use), the code takes 0 (free). -/
theorem C28_default_type_counterexample :
    xrefFromStream [(b!"W", .arr [.int 0, .int 1, .int 1]), (b!"Size", .int 1)] [17, 0] =
      .ok { free := [(17, ⟨0, 0⟩)] } := by decide +kernel

/-- C28 is false for an `Index` of several ranges: the row of object 9 is listed as object 1. -/
theorem C28_ranges_counterexample :
    xrefFromStream [(b!"W", .arr [.int 1, .int 1, .int 1]), (b!"Index", .arr [.int 0, .int 1, .int 9, .int 1])] [1, 3, 0, 1, 4, 0] =
      .ok { inUse := [(0, ⟨3, 0⟩), (1, ⟨4, 0⟩)] } := by decide +kernel

/-! ### C30 -/

theorem nonNegInt_noDiv (x : Bytes) : nonNegInt x ≠ .error .diverges := by
  intro h
  rcases dropErr (nonNegInt_good _) h with h | h <;> cases h

theorem xrefOffset_noDiv (clamps : Bool) (file : Bytes) : xrefOffset clamps file ≠ .error .diverges := by
  unfold xrefOffset seekEof
  split
  · rename_i e h
    split at h
    · cases h; simp
    · split at h
      · cases h; simp
      · split at h
        · cases h
        · cases h; simp
  · split
    · simp
    · split
      · simp
      · split
        · rename_i e h; rw [skipSC_err h]; simp
        · split
          · rename_i e h; intro h2; cases h2; exact nonNegInt_noDiv _ h
          · simp

theorem sections_noDiv {filtered} (hf : ∀ d raw, filtered d raw ≠ (.error .diverges : Res Bytes)) (file : Bytes) (off a : Nat) :
    sections filtered file off a ≠ .error .diverges := by
  unfold sections
  split
  · exact tableSection_noDiv openCfg_noDiv _ _
  · exact streamSection_noDiv hf _ _

theorem sections_lt {filtered} {file : Bytes} {off a : Nat} {s : Section} (h : sections filtered file off a = .ok s) : a < file.length := by
  unfold sections at h
  split at h
  · exact tableSection_lt h
  · exact streamSection_lt h

/-- C30, what holds: reading the trailers of a file terminates if no section is its own (direct or indirect)
predecessor, after at most one section per byte of the file. Missing: files whose `Prev` entries form a
cycle, see the counterexample. `filtered` is the decoding of stream data. -/
theorem C30_terminates_partial (filtered : List (Bytes × Obj) → Bytes → Res Bytes) (hf : ∀ d raw, filtered d raw ≠ .error .diverges)
    (clamps : Bool) (file : Bytes)
    (hac : ∀ off a, xrefOffset clamps file = .ok off → (a = off ∨ Follows (sections filtered file off) off a) →
      ¬ Follows (sections filtered file off) a a) (fuel : Nat) (hfuel : file.length < fuel) :
    pdfTrailer filtered clamps fuel file ≠ .error .diverges := by
  unfold pdfTrailer
  split
  · rename_i e h; intro h2; cases h2; exact xrefOffset_noDiv _ _ h
  · rename_i off h
    exact chain_terminates (sections_noDiv hf file off) (fun a s => sections_lt) off (fun a => hac off a h) fuel off [] (Or.inl rfl)
      List.nodup_nil (by simp) (by simp) (by simpa using hfuel)

/-- C30, exactly when it fails: opening does not terminate if and only if the chain of `Prev` offsets which starts
at the `startxref` offset runs into a cycle. -/
theorem C30_diverges_iff (filtered : List (Bytes × Obj) → Bytes → Res Bytes) (hf : ∀ d raw, filtered d raw ≠ .error .diverges)
    (clamps : Bool) (file : Bytes) :
    (∀ fuel, pdfTrailer filtered clamps fuel file = .error .diverges) ↔
    ∃ off a, xrefOffset clamps file = .ok off ∧ (a = off ∨ Follows (sections filtered file off) off a) ∧
      Follows (sections filtered file off) a a := by
  constructor
  · intro h
    apply Classical.byContradiction
    intro hn
    refine C30_terminates_partial filtered hf clamps file ?_ (file.length + 1) (by omega) (h _)
    intro off a h1 h2 h3
    exact hn ⟨off, a, h1, h2, h3⟩
  · rintro ⟨off, a, h1, h2, h3⟩ fuel
    unfold pdfTrailer
    rw [h1]
    exact chain_cycle fuel off a (h2.imp Eq.symm id) h3

/-- A file whose only section names itself as its predecessor. -/
def selfPrev : Bytes := b!"%PDF-1.4\nxref\n0 0\ntrailer\n<</Prev 9>>\nstartxref\n9\n%%EOF\n"

/-- C30 is false: opening `selfPrev` never ends. -/
theorem C30_counterexample (filtered : List (Bytes × Obj) → Bytes → Res Bytes) (fuel : Nat) :
    pdfTrailer filtered true fuel selfPrev = .error .diverges := by
  have h1 : xrefOffset true selfPrev = .ok 9 := by decide +kernel
  have h2 : tableSection openCfg selfPrev 9 = .ok ({}, [(b!"Prev", .int 9)], some 9) := by decide +kernel
  have h3 : (selfPrev.drop 9).head? = some 120 := by decide +kernel
  unfold pdfTrailer
  rw [h1]
  have hs : Follows (sections filtered selfPrev 9) 9 9 := by
    unfold sections
    rw [if_pos h3]
    exact .one _ _ _ _ h2
  exact chain_cycle fuel 9 9 (Or.inl rfl) hs

/-- Two sections, the newer at offset 41 naming the older at offset 9. -/
def twoSections : Bytes :=
  b!"%PDF-1.4\nxref\n0 0\ntrailer\n<</Size 1>>\n%.\nxref\n0 0\ntrailer\n<</Prev 9>>\nstartxref\n41\n%%EOF\n"

/-- The hypotheses of C30 are met by a file with two sections. -/
example (fuel : Nat) (h : twoSections.length < fuel) : pdfTrailer (fun _ _ => .ok []) true fuel twoSections ≠ .error .diverges := by
  apply C30_terminates_partial _ (by simp) _ _ _ _ h
  intro off a h1 h2
  have e : xrefOffset true twoSections = .ok 41 := by decide +kernel
  rw [e] at h1
  cases h1
  have h3 : (twoSections.drop 41).head? = some 120 := by decide +kernel
  have s1 : tableSection openCfg twoSections 41 = .ok ({}, [(b!"Prev", .int 9)], some 9) := by decide +kernel
  have s2 : tableSection openCfg twoSections 9 = .ok ({}, [(b!"Size", .int 1)], none) := by decide +kernel
  have none9 : ∀ b, ¬ Follows (sections (fun _ _ => .ok []) twoSections 41) 9 b := by
    intro b hb
    unfold sections at hb
    rw [if_pos h3] at hb
    cases hb with
    | one _ _ x d h => rw [s2] at h; cases h
    | step _ _ _ x d h _ => rw [s2] at h; cases h
  have one41 : ∀ b, Follows (sections (fun _ _ => .ok []) twoSections 41) 41 b → b = 9 := by
    intro b hb
    have hb' := hb
    unfold sections at hb
    rw [if_pos h3] at hb
    cases hb with
    | one _ _ x d h => rw [s1] at h; cases h; rfl
    | step _ c _ x d h hc =>
      rw [s1] at h
      cases h
      have : Follows (sections (fun _ _ => .ok []) twoSections 41) 9 b := by
        unfold sections
        rw [if_pos h3]
        exact hc
      exact absurd this (none9 b)
  intro hcyc
  rcases h2 with rfl | h2
  · have := one41 _ hcyc; omega
  · have := one41 _ h2
    subst this
    exact none9 _ hcyc

/-! ### C29: the order of the sections -/

/-- `Revisions sec off rs`: starting at `off` and following `Prev`, the sections are `rs`, newest first. -/
inductive Revisions (sec : Nat → Res Section) : Nat → List (XRef × List (Bytes × Obj)) → Prop
  | oldest (off : Nat) (x : XRef) (d : List (Bytes × Obj)) : sec off = .ok (x, d, none) → Revisions sec off [(x, d)]
  | newer (off p : Nat) (x : XRef) (d : List (Bytes × Obj)) (rs) : sec off = .ok (x, d, some p) → Revisions sec p rs →
      Revisions sec off ((x, d) :: rs)

theorem chain_revisions {sec : Nat → Res Section} : ∀ (fuel off : Nat) (xs : List XRef) (d : List (Bytes × Obj)),
    chain sec fuel off = .ok (xs, d) → ∃ rs, Revisions sec off rs ∧ xs = rs.map (·.1) ∧ rs.head?.map (·.2) = some d := by
  intro fuel
  induction fuel with
  | zero => intro off xs d h; cases h
  | succ fuel ih =>
    intro off xs d h
    rw [chain] at h
    split at h
    · cases h
    · rename_i x d' hs
      cases h
      exact ⟨[(x, d)], .oldest _ _ _ hs, rfl, rfl⟩
    · rename_i x d' p hs
      split at h
      · cases h
      · rename_i xs' d'' hc
        cases h
        obtain ⟨rs, h1, h2, _⟩ := ih _ _ _ hc
        exact ⟨(x, d) :: rs, .newer _ _ _ _ _ hs h1, by rw [h2]; rfl, rfl⟩

/-- C29: after opening a file its cross-reference sections are kept from the newest (the one `startxref` points to)
to the oldest, each followed by the one its `Prev` names, and the trailer dictionary is that of the
newest. -/
theorem C29_sections_newest_first (filtered : List (Bytes × Obj) → Bytes → Res Bytes) (clamps : Bool) (fuel : Nat) (file : Bytes)
    (xs : List XRef) (d : List (Bytes × Obj)) (h : pdfTrailer filtered clamps fuel file = .ok (xs, d)) :
    ∃ off rs, xrefOffset clamps file = .ok off ∧ Revisions (sections filtered file off) off rs ∧ xs = rs.map (·.1) ∧
      rs.head?.map (·.2) = some d := by
  unfold pdfTrailer at h
  split at h
  · cases h
  · rename_i off ho
    obtain ⟨rs, h1, h2, h3⟩ := chain_revisions _ _ _ _ h
    exact ⟨off, rs, ho, h1, h2, h3⟩

example : pdfTrailer (fun _ _ => .ok []) true 100 twoSections = .ok ([{}, {}], [(b!"Prev", .int 9)]) := by decide +kernel

end PdfReader
