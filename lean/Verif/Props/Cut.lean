/-
  C146: updates with cross-reference streams which were interrupted.
-/
import Verif.Spec.Cut
import Verif.Props.Crash
import Verif.Props.Amend

namespace PdfReader

open Spec

variable {filtered : List (Bytes × Obj) → Bytes → Res Bytes}

/-! ### Without the last line feed -/

theorem ind_less {e t rest : Bytes} {n g off : Nat} {o : Obj} (ht : IndText n g o t) (h : (e ++ [10]).drop off = t ++ rest) : ∃ rest', e.drop off = t ++ rest' := by
  refine drop_less ?_ h
  cases ht with
  | mk ns gs s₁ s₂ s₃ s₄ _ t =>
    exact ⟨ns ++ (s₁ ++ (gs ++ (s₂ ++ (b!"obj" ++ (s₃ ++ (t ++ (s₄ ++ b!"endob"))))))), 106, by simp, by decide⟩

theorem section_less {decoded : List (Bytes × Obj) → Bytes → Bytes → Prop} {e : Bytes} {off : Nat} {r : Revision} (h : XRefStreamAt decoded (e ++ [10]) off r) : XRefStreamAt decoded e off r := by
  obtain ⟨num, gen, raw, t, rest, first, w0, w1, w2, rows, h1, h2, h3, h4⟩ := h
  obtain ⟨rest', h3⟩ := ind_less h2 h3
  exact ⟨num, gen, raw, t, rest', first, w0, w1, w2, rows, h1, h2, h3, h4⟩

theorem streams_less {decoded : List (Bytes × Obj) → Bytes → Bytes → Prop} {e : Bytes} {off : Nat} {rs : List Revision} (h : Updates (XRefStreamAt decoded (e ++ [10])) off rs) :
    Updates (XRefStreamAt decoded e) off rs := by
  induction h with
  | oldest off r h1 h2 => exact .oldest off r (section_less h1) h2
  | newer off p r rs h1 h2 h3 _ ih => exact .newer off p r rs (section_less h1) h2 h3 ih

theorem amended_less {decoded : List (Bytes × Obj) → Bytes → Bytes → Prop} {c : Compressed} {us : List Amend} (h : AmendsOk c us) {e : Bytes} (he : (amended c us).1 = e ++ [10]) :
    Spec.Holds decoded AsIs e 0 (amendedRevs c us) (amendedContent c us) := by
  refine holds_listed (fun n g x hx => ?_) (amended_finite c us) (amended_holds (decoded := decoded) h).own
  obtain ⟨hn, off, t, rest, h1, h2, h3⟩ := amended_listed h.base us h.each n g x hx
  rw [he] at h2
  obtain ⟨rest', h2⟩ := ind_less h3 h2
  exact ⟨hn, off, t, rest', h1, h2, .inl h3⟩

theorem amended_end (c : Compressed) (us : List Amend) : ∃ e body, (amended c us).1 = e ++ [10] ∧ body ≠ [] ∧
    e = body ++ (b!"startxref" ++ ([10] ++ (showNat (amended c us).2 ++ ([10] ++ b!"%%EOF")))) := by
  cases us with
  | nil =>
    refine ⟨_, fileHeader ++ showBody (c.body ++ [c.xrefItem]), ?_, by simp [fileHeader], rfl⟩
    show c.write = _ ++ (b!"startxref" ++ ([10] ++ (showNat c.offset ++ _))) ++ _
    unfold Compressed.write
    simp
  | cons u us =>
    refine ⟨_, (amended c us).1 ++ showBody (u.items ++ [u.xrefItem c.how c.encode (amended c us).1.length (amended c us).2]), ?_, ?_, rfl⟩
    · show (amended c us).1 ++ u.text c.how c.encode (amended c us).1.length (amended c us).2 =
        _ ++ (b!"startxref" ++ ([10] ++ (showNat (u.offset (amended c us).1.length) ++ _))) ++ _
      unfold Amend.text
      simp
    · intro e
      have h1 := (List.append_eq_nil_iff.mp e).1
      have h2 := (amended_offset c us).2
      rw [h1] at h2
      simp at h2

/-! ### Where `%%EOF` occurs -/

/-- `%%EOF` occurs only at the end, before a line feed. -/
def OneEnd (t : Bytes) : Prop := ∀ k, OccursAt b!"%%EOF" t k → k + 6 = t.length

theorem once_of {a : Bytes} (h : NoEOF a) : OneEnd (a ++ 10 :: (b!"%%EOF" ++ [10])) := by
  intro k hk
  rcases sep_occurs (by decide) hk with h' | ⟨h1, h2⟩
  · exact absurd (occurs_in_left hk h') (h k)
  · have := occurs_length h2
    obtain ⟨rest, hr⟩ := occurs_drop h2
    generalize hm : k - a.length - 1 = m at h2 this hr
    have hm0 : m = 0 := by
      rcases m with _ | _ | m
      · rfl
      · simp at hr
      · simp at this
    subst hm0
    simp
    omega

theorem once_text {c : Compressed} {u : Amend} (hc : c.Ok) (hu : u.Ok) {start prev : Nat} (hn : NoEndIn (u.items ++ [u.xrefItem c.how c.encode start prev])) : OneEnd (u.text c.how c.encode start prev) := by
  have e : u.text c.how c.encode start prev = (showBody (u.items ++ [u.xrefItem c.how c.encode start prev]) ++ (b!"startxref" ++ 10 :: showNat (u.offset start))) ++ 10 :: (b!"%%EOF" ++ [10]) := by
    unfold Amend.text
    simp
  rw [e]
  refine once_of (noEOF_body _ (fun i hi => ?_) hn _ (noEOF_sep (by decide) (noEOF_free (by decide)) (noEOF_free (nat_free _))))
  rcases List.mem_append.mp hi with hi | hi
  · obtain ⟨k, hk, e⟩ := List.getElem_of_mem hi
    have hk' : k < u.vals.length := by rw [← from_length u.first u.vals]; exact hk
    have := from_get u.first u.vals k hk'
    change u.items[k]? = _ at this
    rw [List.getElem?_eq_getElem hk] at this
    cases this.symm.trans (congrArg some e)
    exact hu.vals _ (List.getElem_mem hk')
  · rw [List.mem_singleton] at hi
    subst hi
    exact amend_writable hc hu start prev

theorem noEOF_header : NoEOF b!"%PDF-1.7" := by
  rintro k ⟨a, b, e, hab⟩
  have e2 := congrArg (fun l : Bytes => l.filter (· == 37)) e
  simp only [List.filter_append] at e2
  have := congrArg List.length e2
  simp at this
  omega

theorem once_base {c : Compressed} (hc : c.Ok) (hn : NoEndIn (c.body ++ [c.xrefItem])) : OneEnd c.write := by
  have e : c.write = (b!"%PDF-1.7" ++ 10 :: (showBody (c.body ++ [c.xrefItem]) ++ (b!"startxref" ++ 10 :: showNat c.offset))) ++ 10 :: (b!"%%EOF" ++ [10]) := by
    unfold Compressed.write fileHeader
    simp
  rw [e]
  refine once_of (noEOF_sep (by decide) noEOF_header (noEOF_body _ (fun i hi => ?_) hn _ (noEOF_sep (by decide) (noEOF_free (by decide)) (noEOF_free (nat_free _)))))
  unfold Compressed.body at hi
  simp only [List.mem_append, List.mem_singleton] at hi
  rcases hi with (hi | rfl) | rfl
  · exact hc.vals i hi
  · exact pack_writable hc
  · exact xref_writable hc

theorem once_pending (e : Bytes) {t : Bytes} {q : Nat} (ht : OneEnd t) (hq : q < t.length) :
    Pending e ((10 :: t).take q) := by
  intro s j _ hj _
  have hlen := occurs_length hj
  refine ⟨j, ?_, by assumption⟩
  have hj' : OccursAt b!"%%EOF" (e ++ 10 :: t) j := by
    have := occurs_more ((10 :: t).drop q) hj
    rwa [List.append_assoc, List.take_append_drop] at this
  rcases sep_occurs (by decide) hj' with h | ⟨h1, h⟩
  · exact occurs_in_left hj h
  · exfalso
    have := ht _ h
    rw [List.length_append, List.length_take] at hlen
    simp at hlen
    omega

/-! ### What is there after `p` bytes -/

theorem amended_prefix (c : Compressed) : ∀ (newer older : List Amend), ∃ y, (amended c (newer ++ older)).1 = (amended c older).1 ++ y
  | [], older => ⟨[], by simp⟩
  | u :: newer, older => by
    obtain ⟨y, e⟩ := amended_prefix c newer older
    refine ⟨y ++ u.text c.how c.encode (amended c (newer ++ older)).1.length (amended c (newer ++ older)).2, ?_⟩
    show (amended c (newer ++ older)).1 ++ _ = _
    generalize u.text c.how c.encode (amended c (newer ++ older)).1.length (amended c (newer ++ older)).2 = z
    rw [e, List.append_assoc]

theorem noEnd_suffix {c : Compressed} : ∀ (newer : List Amend) {older : List Amend}, AmendsNoEnd c (newer ++ older) → AmendsNoEnd c older
  | [], _, h => h
  | _ :: newer, _, h => noEnd_suffix newer h.2

theorem content_suffix {c : Compressed} {n g : Nat} : ∀ (newer : List Amend) {older : List Amend}, amendedContent c (newer ++ older) n g = none → amendedContent c older n g = none
  | [], _, h => h
  | u :: newer, older, h => by
    refine content_suffix newer ?_
    change amendedContent c (u :: (newer ++ older)) n g = none at h
    unfold amendedContent at h
    split at h
    · rename_i hin
      rw [List.getElem?_eq_none_iff] at h
      omega
    · exact h

theorem ok_suffix {c : Compressed} (newer : List Amend) {older : List Amend} (h : AmendsOk c (newer ++ older)) : AmendsOk c older := by
  refine ⟨h.base, fun u hu => h.each u (by simp [hu]), ?_, content_suffix newer h.own.1, fun u hu => content_suffix newer (h.own.2 u (by simp [hu]))⟩
  obtain ⟨y, e⟩ := amended_prefix c newer older
  have := h.length
  rw [e, List.length_append] at this
  omega

/-- Either some updates are finished, or not even the document. -/
theorem finishedU_or (c : Compressed) (p : Nat) : ∀ us : List Amend, (∃ older, FinishedU c us p older) ∨ p + 1 < c.write.length
  | [] => by
    by_cases h : c.write.length ≤ p + 1
    · exact .inl ⟨[], [], rfl, h, fun a u e => by simp at e⟩
    · exact .inr (by omega)
  | u :: us => by
    by_cases h : (amended c (u :: us)).1.length ≤ p + 1
    · exact .inl ⟨u :: us, [], rfl, h, fun a u e => by simp at e⟩
    · rcases finishedU_or c p us with ⟨older, newer, e, h1, h2⟩ | h'
      · refine .inl ⟨older, u :: newer, by rw [e]; rfl, h1, fun a w hw => ?_⟩
        cases a with
        | nil =>
          rw [List.nil_append] at hw
          injection hw with hw1 hw2
          subst hw1 hw2
          rw [List.nil_append] at e
          subst e
          omega
        | cons x a =>
          injection hw with _ hw
          exact h2 a w hw
      · exact .inr h'

theorem finishedU_bytes {c : Compressed} {us : List Amend} {p : Nat} {older : List Amend} (h : AmendsOk c us) (hn : AmendsNoEnd c us) (hf : FinishedU c us p older) :
    ∃ e t q, (amended c older).1 = e ++ [10] ∧ (amended c us).1.take p = e ++ (10 :: t).take q ∧ q < t.length ∧ OneEnd t ∧ (p ≤ (amended c us).1.length → e.length + q = p) := by
  obtain ⟨newer, rfl, h1, h2⟩ := hf
  obtain ⟨e, body, he, _, _⟩ := amended_end c older
  have hel : (amended c older).1.length = e.length + 1 := by rw [he]; simp
  rcases List.eq_nil_or_concat newer with rfl | ⟨a, u, rfl⟩
  · rw [List.nil_append] at *
    refine ⟨e, [] ++ 10 :: (b!"%%EOF" ++ [10]), min (p - e.length) 1, he, ?_, by simp; omega, once_of (noEOF_free (by simp)), fun hp => by omega⟩
    rw [he, List.take_append, List.take_of_length_le (by omega)]
    congr 1
    have : ∀ n (t : Bytes), ([10] : Bytes).take n = (10 :: t).take (min n 1) := by
      intro n t
      rcases n with _ | n
      · rfl
      · rw [show min (n + 1) 1 = 1 by omega]; simp
    exact this _ _
  · rw [List.concat_eq_append] at *
    have h3 := h2 a u rfl
    have e1 : a ++ [u] ++ older = a ++ u :: older := by simp
    rw [e1] at h hn ⊢
    obtain ⟨y, ey⟩ := amended_prefix c a (u :: older)
    have e2 : (amended c (u :: older)).1 = (amended c older).1 ++ u.text c.how c.encode (amended c older).1.length (amended c older).2 := rfl
    have hon : OneEnd (u.text c.how c.encode (amended c older).1.length (amended c older).2) := once_text h.base (h.each u (by simp)) (noEnd_suffix a (older := u :: older) hn).1
    rw [ey, e2]
    rw [e2] at h3
    generalize u.text c.how c.encode (amended c older).1.length (amended c older).2 = T at *
    rw [List.length_append] at h3
    refine ⟨e, T, p - e.length, he, ?_, by omega, hon, fun hp => by omega⟩
    rw [he, List.append_assoc, List.append_assoc, List.take_append, List.take_of_length_le (by omega)]
    congr 1
    rw [List.singleton_append, ← List.cons_append, List.take_append_of_le_length (by simp; omega)]

/-! ### C146 -/

/-- The document reads as after the updates `us`: the entries of the trailer are those of the newest, and every object which is not in an object stream has its newest value, whichever of
them are read before. -/
def ReadsAsU (filtered : List (Bytes × Obj) → Bytes → Res Bytes) (clamps : Bool) (file : Bytes) (c : Compressed) (us : List Amend) : Prop :=
  ∃ F, ∀ fuel, F ≤ fuel → ∃ o, openDoc filtered clamps fuel file = .ok o ∧ o.version = b!"1.7" ∧
    (∀ key ∈ [b!"Root", b!"Encrypt", b!"Info", b!"ID"], ∀ v, dictGet (newestTrailer c us) key = some v → dictGet o.trailer key = some v) ∧
    ∀ history : List (Nat × Nat), (∀ k ∈ history, amendedContent c us k.1 k.2 ≠ none) → ∀ n g x, amendedContent c us n g = some x →
      (locate o.env fuel n g (asked o.env fuel history o.st)).1 = .ok x

theorem amended_trailer {c : Compressed} {us : List Amend} (hc : c.Ok) {r : Revision} {rs : List Revision} (e : amendedRevs c us = r :: rs) {key : Bytes}
    (hkey : key ∈ [b!"Root", b!"Encrypt", b!"Info", b!"ID"]) {v : Obj} (hv : dictGet (newestTrailer c us) key = some v) : dictGet r.dict key = some v := by
  cases us with
  | nil =>
    rw [amendedRevs] at e
    injection e with e _
    subst e
    exact xref_trailer hc hv
  | cons u us =>
    rw [amendedRevs] at e
    injection e with e _
    subst e
    refine (amend_trailer hc _ _ ?_).trans hv
    simp only [List.mem_cons, List.not_mem_nil, or_false] at hkey
    rcases hkey with rfl | rfl | rfl | rfl <;> decide

theorem amended_long (c : Compressed) (us : List Amend) : ∃ rest, (amended c us).1 = fileHeader ++ rest ∧ 14 ≤ rest.length := by
  obtain ⟨x, e⟩ := amended_begins c us
  rw [e]
  unfold Compressed.write
  rw [List.append_assoc]
  refine ⟨_, rfl, ?_⟩
  simp
  omega

/-- A complete document with the beginning of another update after it. -/
theorem readsU_interrupted {clamps : Bool} {c : Compressed} {us : List Amend} (h : AmendsOk c us) (hundo : Undoes filtered c.how c.encode)
    {x e : Bytes} (he : (amended c us).1 = e ++ [10]) (hp : Pending e x) (hn : EndNear (e ++ x)) (hb : clamps = true ∨ 1024 ≤ (e ++ x).length) : ReadsAsU filtered clamps (e ++ x) c us := by
  obtain ⟨e', body, h1, h2, h3⟩ := amended_end c us
  obtain rfl : e = e' := by rw [he] at h1; exact (List.append_inj' h1 rfl).1
  have hs : StartsAt e _ := starts_bare h3 h2
  have hu := amended_sections (decoded := fun d raw data => filtered d raw = .ok data) h.base hundo us h.each h.length
  rw [he] at hu
  have hsec : SectionsFrom (fun d raw data => filtered d raw = .ok data) e _ _ := .inr (streams_less hu)
  have hc := amended_less (decoded := fun d raw data => filtered d raw = .ok data) h he
  have hh : HeaderAt e b!"1.7" 0 := by
    obtain ⟨rest, hr, hl⟩ := amended_long c us
    have hlen := congrArg List.length (he.symm.trans hr)
    have h9 : fileHeader.length = 9 := rfl
    simp only [List.length_append, h9, List.length_singleton] at hlen
    have ht : (amended c us).1.take 9 = fileHeader := by rw [hr, List.take_left' h9]
    rw [he, List.take_append_of_le_length (by omega)] at ht
    exact header_front (rest := e.drop 9) (by rw [← ht, List.take_append_drop]) (by omega)
  obtain ⟨r, rs, er⟩ := amendedRevs_cons c us
  rw [er] at hsec hc
  obtain ⟨F, hF⟩ := C134_appended clamps e x _ 0 _ r rs _ hh hs hb hsec hc hp hn
  refine ⟨F, fun fuel hf => ?_⟩
  obtain ⟨o, h1, h2, h3, h4⟩ := hF fuel hf
  refine ⟨o, h1, h2, fun key hkey v hv => ?_, h4⟩
  refine (h3 key ?_).1 v (amended_trailer h.base er hkey hv)
  simp only [List.mem_cons, List.not_mem_nil, or_false] at hkey ⊢
  rcases hkey with h | h | h | h <;> simp [h]

/-- C146: a document is written with an object stream, a cross-reference stream and any number of updates with cross-reference streams, and writing is interrupted
after any number of bytes; no data of streams contain `%%EOF`. Then the file reads as after the last update which was finished; or opening it raises an exception. -/
theorem C146_interrupted (clamps : Bool) (c : Compressed) (us : List Amend) (h : AmendsOk c us) (hend : AmendsNoEnd c us) (hundo : Undoes filtered c.how c.encode) (p : Nat) :
    (∃ e ∈ [Exc.parser, Exc.typeError, Exc.osError], ∀ fuel, openDoc filtered clamps fuel ((amended c us).1.take p) = .error e) ∨
      ∃ older, FinishedU c us p older ∧ ReadsAsU filtered clamps ((amended c us).1.take p) c older := by
  have hfront : ∃ rest, (amended c us).1.take p = fileHeader ++ rest ∨ ((amended c us).1.take p).length < 22 := by
    by_cases hp : p < 22
    · exact ⟨[], .inr (by rw [List.length_take]; omega)⟩
    · obtain ⟨rest, hr, _⟩ := amended_long c us
      rw [hr, List.take_append, List.take_of_length_le (by simp [fileHeader]; omega)]
      exact ⟨_, .inl rfl⟩
  obtain ⟨rest, hfront⟩ := hfront
  by_cases hb : clamps = true ∨ 1024 ≤ ((amended c us).1.take p).length
  · by_cases hl : ((amended c us).1.take p).length < 22
    · refine .inl ⟨.typeError, by simp, fun fuel => ?_⟩
      unfold openDoc
      rw [C25_tiny_file _ hl]
    have hh : HeaderAt ((amended c us).1.take p) b!"1.7" 0 := by
      rcases hfront with h | h
      · exact header_front h (by omega)
      · omega
    by_cases hn : EndNear ((amended c us).1.take p)
    · rcases finishedU_or c p us with ⟨older, hfin⟩ | hd
      · right
        refine ⟨older, hfin, ?_⟩
        obtain ⟨e, t, q, h1, h2, h3, h4, _⟩ := finishedU_bytes h hend hfin
        obtain ⟨newer, rfl, h5, h6⟩ := hfin
        obtain ⟨e', body, he', _, hbody⟩ := amended_end c older
        obtain rfl : e = e' := by rw [h1] at he'; exact (List.append_inj' he' rfl).1
        rw [h2] at hn hb ⊢
        exact readsU_interrupted (ok_suffix newer h) hundo h1 (once_pending e h4 h3) hn hb
      · exfalso
        obtain ⟨j, hj, _⟩ := hn
        obtain ⟨x, ex⟩ := amended_begins c us
        have hlen := occurs_length hj
        have hj' := occurs_more ((amended c us).1.drop p) hj
        rw [List.take_append_drop, ex] at hj'
        rw [List.length_take] at hlen
        have h5 : (b!"%%EOF").length = 5 := rfl
        have := once_base h.base (noEnd_suffix us (older := []) (by rwa [List.append_nil])) j (occurs_in_left hj' (by omega))
        omega
    · exact .inl ⟨.parser, by simp, fun fuel => noEnd_fails hh hb hn fuel⟩
  · obtain ⟨e, he, h⟩ := small_fails hfront hb
    exact .inl ⟨e, by simp at he ⊢; rcases he with h | h <;> simp [h], h⟩

/-- C146, when the document stays readable: if the bytes after the last finished update are at most 1018. -/
theorem C146_readable_partial (clamps : Bool) (c : Compressed) (us : List Amend) (h : AmendsOk c us) (hend : AmendsNoEnd c us) (hundo : Undoes filtered c.how c.encode) (p : Nat)
    (hp : p ≤ (amended c us).1.length) (older : List Amend) (hfin : FinishedU c us p older) (hb : clamps = true ∨ 1024 ≤ p) (hnear : p ≤ (amended c older).1.length + 1017) :
    ReadsAsU filtered clamps ((amended c us).1.take p) c older := by
  obtain ⟨e, t, q, h1, h2, h3, h4, h5⟩ := finishedU_bytes h hend hfin
  have h5 := h5 hp
  obtain ⟨newer, rfl, _, _⟩ := hfin
  obtain ⟨e', body, he', _, hbody⟩ := amended_end c older
  obtain rfl : e = e' := by rw [h1] at he'; exact (List.append_inj' he' rfl).1
  have hlen : ((amended c (newer ++ older)).1.take p).length = p := by rw [List.length_take]; omega
  rw [h1, List.length_append] at hnear
  rw [← hlen, h2] at hb
  rw [h2]
  refine readsU_interrupted (ok_suffix newer h) hundo h1 (once_pending e h4 h3) (end_near hbody ?_) hb
  rw [List.length_take]
  simp at hnear
  omega

/-- C146: with more than that, opening the file raises a ParserException. -/
theorem C146_lost (clamps : Bool) (c : Compressed) (us : List Amend) (h : AmendsOk c us) (hend : AmendsNoEnd c us) (p : Nat)
    (hp : p ≤ (amended c us).1.length) (older : List Amend) (hfin : FinishedU c us p older) (hb : clamps = true ∨ 1024 ≤ p) (hfar : (amended c older).1.length + 1017 < p) (fuel : Nat) :
    openDoc filtered clamps fuel ((amended c us).1.take p) = .error .parser := by
  obtain ⟨e, t, q, h1, h2, h3, h4, h5⟩ := finishedU_bytes h hend hfin
  have h5 := h5 hp
  have hlen : ((amended c us).1.take p).length = p := by rw [List.length_take]; omega
  have hw : ∃ rest, (amended c us).1.take p = fileHeader ++ rest := by
    obtain ⟨rest, hr, _⟩ := amended_long c us
    rw [hr, List.take_append, List.take_of_length_le (by simp [fileHeader]; omega)]
    exact ⟨_, rfl⟩
  obtain ⟨rest, hw⟩ := hw
  refine noEnd_fails (header_front hw (by omega)) (by rw [hlen]; exact hb) ?_ fuel
  rintro ⟨j, hj, hn⟩
  rw [hlen] at hn
  rw [h2] at hj
  have hl := occurs_length hj
  have h55 : (b!"%%EOF").length = 5 := rfl
  have hj' : OccursAt b!"%%EOF" (e ++ 10 :: t) j := by
    have := occurs_more ((10 :: t).drop q) hj
    rwa [List.append_assoc, List.take_append_drop] at this
  rw [h1, List.length_append] at hfar
  rcases sep_occurs (by decide) hj' with h | ⟨h, hs⟩
  · simp at hfar
    omega
  · have := h4 _ hs
    rw [List.length_append, List.length_take] at hl
    simp at hl
    omega

/-- C146, when the document without updates is all that was finished, and its last line feed too: also the objects in its object stream have their values. -/
theorem C146_packed_partial (clamps : Bool) (c : Compressed) (us : List Amend) (h : AmendsOk c us) (hend : AmendsNoEnd c us) (hundo : Undoes filtered c.how c.encode) (p : Nat)
    (hp : p ≤ (amended c us).1.length) (hfin : FinishedU c us p []) (hfull : c.write.length ≤ p) (hb : clamps = true ∨ 1024 ≤ p) (hnear : p ≤ c.write.length + 1017) :
    ∃ F, ∀ fuel, F ≤ fuel → ∃ o, openDoc filtered clamps fuel ((amended c us).1.take p) = .ok o ∧
      ∀ history : List (Nat × Nat), (∀ k ∈ history, c.content k.1 k.2 ≠ none) → ∀ n g y, c.content n g = some y →
        (locate o.env fuel n g (asked o.env fuel history o.st)).1 = .ok y := by
  obtain ⟨e, t, q, h1, h2, h3, h4, h5⟩ := finishedU_bytes h hend hfin
  have h5 := h5 hp
  obtain ⟨e', body, he', _, hbody⟩ := amended_end c []
  obtain rfl : e = e' := by rw [h1] at he'; exact (List.append_inj' he' rfl).1
  have he : c.write = e ++ [10] := h1
  have hl := congrArg List.length he
  rw [List.length_append, List.length_singleton] at hl
  obtain ⟨m, rfl⟩ : ∃ m, q = m + 1 := ⟨q - 1, by omega⟩
  have e3 : (amended c us).1.take p = c.write ++ t.take m := by
    rw [h2, he, List.take_succ_cons]
    simp
  have hlen : ((amended c us).1.take p).length = p := by rw [List.length_take]; omega
  have hpend := once_pending e h4 h3
  rw [List.take_succ_cons] at hpend
  have hsec := sections_compressed (decoded := fun d raw data => filtered d raw = .ok data) h.base hundo
  have hh := holds_compressed (decoded := fun d raw data => filtered d raw = .ok data) h.base hundo (fun d raw a b h1 h2 => by rw [h1] at h2; cases h2; rfl)
  have hp' : Pending c.write (t.take m) := by
    intro s j hs hj hsj
    rw [he, List.append_assoc, List.singleton_append] at hs hj
    obtain ⟨j', hj', hle⟩ := hpend s j hs hj hsj
    exact ⟨j', by rw [he]; exact occurs_more _ hj', hle⟩
  have hnear' : EndNear (c.write ++ t.take m) := by
    rw [he, List.append_assoc, List.singleton_append]
    refine end_near hbody ?_
    simp
    omega
  rw [← hlen, e3] at hb
  rw [e3]
  obtain ⟨F, hF⟩ := C134_appended clamps c.write (t.take m) _ 0 _ (revC c) [] _ (header_compressed c) (starts_compressed c) hb hsec hh hp' hnear'
  refine ⟨F, fun fuel hf => ?_⟩
  obtain ⟨o, h1, _, _, h4⟩ := hF fuel hf
  exact ⟨o, h1, h4⟩

/-! ### Examples -/

theorem oldPack_noEnd : AmendsNoEnd oldPack [newFive] := by
  refine ⟨?_, ?_⟩
  · intro i hi e data h
    rcases List.mem_append.mp hi with hi | hi
    · simp [newFive, Amend.items, Amend.from_] at hi
      subst hi
      simp at h
    · rw [List.mem_singleton] at hi
      subst hi
      injection h with _ h
      subst h
      exact noEOF_free (by decide +kernel)
  · intro i hi e data h
    unfold Compressed.body at hi
    simp only [List.mem_append, List.mem_singleton] at hi
    rcases hi with (hi | rfl) | rfl
    · simp [oldPack] at hi
      subst hi
      simp at h
    · injection h with _ h
      subst h
      exact noEOF_free (by decide +kernel)
    · injection h with _ h
      subst h
      exact noEOF_free (by decide +kernel)

theorem cut_finished : FinishedU oldPack [newFive] 400 [] := by
  refine ⟨[newFive], rfl, by decide +kernel, fun a u e => ?_⟩
  cases a with
  | nil =>
    rw [List.nil_append] at e
    injection e with e _
    subst e
    decide +kernel
  | cons x a =>
    injection e with _ e
    simp at e

/-- The hypotheses of C146 are met: the update is interrupted in its cross-reference stream, and object 5 reads as before, from the object stream. -/
example : ReadsAsU plain true ((amended oldPack [newFive]).1.take 400) oldPack [] :=
  C146_readable_partial true oldPack [newFive] newFive_ok oldPack_noEnd (fun _ _ _ _ => rfl) 400 (by decide +kernel) [] cut_finished (.inl rfl) (by decide +kernel)

example : ∃ F, ∀ fuel, F ≤ fuel → ∃ o, openDoc plain true fuel ((amended oldPack [newFive]).1.take 400) = .ok o ∧
    (locate o.env fuel 5 0 (asked o.env fuel [(3, 0), (6, 0)] o.st)).1 = .ok (.str b!"old") := by
  obtain ⟨F, hF⟩ := C146_packed_partial (filtered := plain) true oldPack [newFive] newFive_ok oldPack_noEnd (fun _ _ _ _ => rfl) 400 (by decide +kernel) cut_finished (by decide +kernel)
    (.inl rfl) (by decide +kernel)
  refine ⟨F, fun fuel hf => ?_⟩
  obtain ⟨o, e, h⟩ := hF fuel hf
  exact ⟨o, e, h [(3, 0), (6, 0)] (by decide +kernel) 5 0 _ (by decide +kernel)⟩

/-- An update with a stream of 1100 bytes. -/
def largeFive : Amend := { first := 5, vals := [.stream [(b!"Length", .int 1100)] largeData], xref := 8, size := 9, trailer := [(b!"Root", .ref 1 0)] }

theorem largeFive_ok : AmendsOk oldPack [largeFive] := by
  refine ⟨oldPack_ok, ?_, by decide +kernel, by decide, ?_⟩
  · intro u hu
    rw [List.mem_singleton] at hu
    subst hu
    refine ⟨by simp [largeFive, WritableValue, Writable, WritableEnts, show largeData.length = 1100 from List.length_replicate], ?_, by decide, by simp [largeFive, Writable, WritableEnts], by simp [largeFive]⟩
    intro v hv e data h
    simp only [largeFive, List.mem_singleton] at hv
    subst hv
    injection h with h _
    rw [← h]
    simp
  · intro u hu
    rw [List.mem_singleton] at hu
    subst hu
    decide

theorem largeFive_noEnd : AmendsNoEnd oldPack [largeFive] := by
  refine ⟨?_, oldPack_noEnd.2⟩
  intro i hi e data h
  rcases List.mem_append.mp hi with hi | hi
  · simp only [largeFive, Amend.items, Amend.from_, List.mem_singleton] at hi
    subst hi
    injection h with _ h
    rw [← h]
    exact noEOF_free fun hm => by have := (List.mem_replicate.mp hm).2; revert this; decide
  · rw [List.mem_singleton] at hi
    subst hi
    injection h with _ h
    subst h
    exact noEOF_free (by decide +kernel)

/-- C146 as a promise that the document stays readable is false: when writing a large update is interrupted, opening the file raises a ParserException. -/
theorem C146_counterexample (fuel : Nat) : openDoc plain true fuel ((amended oldPack [largeFive]).1.take 1400) = .error .parser := by
  refine C146_lost true oldPack [largeFive] largeFive_ok largeFive_noEnd 1400 (by decide +kernel) [] ⟨[largeFive], rfl, by decide +kernel, fun a u e => ?_⟩ (.inl rfl) (by decide +kernel) fuel
  cases a with
  | nil =>
    rw [List.nil_append] at e
    injection e with e _
    subst e
    decide +kernel
  | cons x a =>
    injection e with _ e
    simp at e

end PdfReader
