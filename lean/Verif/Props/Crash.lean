/-
  C134, C135: updates which were interrupted.
-/
import Verif.Lemmas.Crash

namespace PdfReader

open Spec

variable {filtered : List (Bytes × Obj) → Bytes → Res Bytes}

/-! ### C134: bytes after a complete file -/

/-- C134, for any file and any bytes after it: if these do not finish an update, the file is read as without them, as long as a `%%EOF` is near the end. -/
theorem C134_appended (clamps : Bool) (file x v : Bytes) (k off : Nat) (r : Revision) (rs : List Revision) (content : Spec.Content) (hh : HeaderAt file v k)
    (hs : StartsAt file off) (hb : clamps = true ∨ 1024 ≤ (file ++ x).length)
    (hsec : SectionsFrom (fun d raw data => filtered d raw = .ok data) file off (r :: rs))
    (hc : Spec.Holds (fun d raw data => filtered d raw = .ok data) AsIs file k (r :: rs) content) (hp : Pending file x) (hn : EndNear (file ++ x)) :
    ∃ F, ∀ fuel, F ≤ fuel → ∃ o, openDoc filtered clamps fuel (file ++ x) = .ok o ∧ o.version = v ∧ TrailerIs o.trailer r.dict ∧
      ∀ history : List (Nat × Nat), (∀ k ∈ history, content k.1 k.2 ≠ none) → ∀ n g y, content n g = some y →
        (locate o.env fuel n g (asked o.env fuel history o.st)).1 = .ok y := by
  obtain ⟨F, hF⟩ := C90_delivered clamps (file ++ x) v k off r rs content (header_more x hh) (starts_more hs hp hn) hb (sections_more x hsec) (holds_more x hc)
  refine ⟨F + rs.length + 1, fun fuel hf => ?_⟩
  obtain ⟨o, h1, h2, h3, _⟩ := C89_opens (filtered := filtered) clamps _ _ k _ r rs (header_more x hh) (starts_more hs hp hn) hb (sections_more x hsec) fuel (by omega)
  obtain ⟨o', h1', h4⟩ := hF fuel (by omega)
  rw [h1] at h1'
  cases h1'
  exact ⟨o, h1, h2, h3, h4⟩

/-- C134: otherwise opening raises a ParserException. -/
theorem C134_raises (clamps : Bool) (file x v : Bytes) (k : Nat) (hh : HeaderAt file v k) (hb : clamps = true ∨ 1024 ≤ (file ++ x).length) (hn : ¬ EndNear (file ++ x))
    (fuel : Nat) : openDoc filtered clamps fuel (file ++ x) = .error .parser :=
  noEnd_fails (header_more x hh) hb hn fuel

/-! ### Writing interrupted at any byte -/

/-- The document reads as after the revisions `older ++ [last]`: the entries of the trailer are those of `last`, and every object has the value which the
last of these revisions which contains it gives it, whichever objects are read before. -/
def ReadsAs (filtered : List (Bytes × Obj) → Bytes → Res Bytes) (clamps : Bool) (file : Bytes) (older : List Draft) (last : Draft) : Prop :=
  ∃ F, ∀ fuel, F ≤ fuel → ∃ o, openDoc filtered clamps fuel file = .ok o ∧ o.version = b!"1.7" ∧
    (∀ key ∈ [b!"Size", b!"Root", b!"Encrypt", b!"Info", b!"ID"], ∀ v, dictGet last.trailer key = some v → dictGet o.trailer key = some v) ∧
    ∀ history : List (Nat × Nat), (∀ k ∈ history, contentOf (older ++ [last]) k.1 k.2 ≠ none) → ∀ n g x, contentOf (older ++ [last]) n g = some x →
      (locate o.env fuel n g (asked o.env fuel history o.st)).1 = .ok x

/-- How a sequence of revisions ends with its last one. -/
theorem drafts_split : ∀ (a : List Draft) (start : Nat) (prev : Option Nat), ∃ prev', ∀ d b, ∃ Q,
    showDrafts start prev (a ++ d :: b) = showDrafts start prev a ++ (d.show (start + (showDrafts start prev a).length) prev' ++ Q) ∧
    showDrafts start prev (a ++ [d]) = showDrafts start prev a ++ d.show (start + (showDrafts start prev a).length) prev'
  | [], start, prev => ⟨prev, fun d b => ⟨_, by rw [List.nil_append, showDrafts, showDrafts]; rfl, by rw [List.nil_append, showDrafts, showDrafts, showDrafts]; simp⟩⟩
  | d' :: a, start, prev => by
    obtain ⟨prev', h⟩ := drafts_split a (start + (d'.show start prev).length) (some (start + (showBody d'.items).length))
    refine ⟨prev', fun d b => ?_⟩
    obtain ⟨Q, h1, h2⟩ := h d b
    refine ⟨Q, ?_, ?_⟩
    · rw [List.cons_append, showDrafts, showDrafts, h1]
      simp [Nat.add_assoc]
    · rw [List.cons_append, showDrafts, showDrafts, h2]
      simp [Nat.add_assoc]

theorem write_split (a : List Draft) : ∃ prev, ∀ d b, ∃ Q, writeFile (a ++ d :: b) = writeFile a ++ (d.show (writeFile a).length prev ++ Q) ∧
    writeFile (a ++ [d]) = writeFile a ++ d.show (writeFile a).length prev := by
  obtain ⟨prev, h⟩ := drafts_split a fileHeader.length none
  refine ⟨prev, fun d b => ?_⟩
  obtain ⟨Q, h1, h2⟩ := h d b
  refine ⟨Q, ?_, ?_⟩
  · unfold writeFile
    rw [h1]
    simp
  · unfold writeFile
    rw [h2]
    simp

/-- Which revisions are finished after `p` bytes (the last line feed may be missing). -/
theorem crash_point (p : Nat) : ∀ n (ds : List Draft), ds.length = n → (ds = [] ∨ (writeFile ds).length ≤ p + 1) ∨ ∃ older d newer, ds = older ++ d :: newer ∧
    (older = [] ∨ (writeFile older).length ≤ p + 1) ∧ p + 1 < (writeFile (older ++ [d])).length := by
  intro n
  induction n with
  | zero => intro ds h; exact .inl (.inl (List.length_eq_zero_iff.mp h))
  | succ n ih =>
    intro ds h
    rcases List.eq_nil_or_concat ds with rfl | ⟨ds, d, rfl⟩
    · simp at h
    rw [List.concat_eq_append] at *
    by_cases hl : (writeFile (ds ++ [d])).length ≤ p + 1
    · exact .inl (.inr hl)
    · right
      rcases ih ds (by simpa using h) with h | ⟨older, d', newer, rfl, h1, h2⟩
      · exact ⟨ds, d, [], rfl, h, by omega⟩
      · exact ⟨older, d', newer ++ [d], by simp, h1, h2⟩

/-- The end of a file without its last line feed. -/
theorem write_end (ds : List Draft) (h : ds ≠ []) : ∃ e body, writeFile ds = e ++ [10] ∧ body ≠ [] ∧
    e = body ++ (b!"startxref" ++ ([10] ++ (showNat (lastOff fileHeader.length none ds) ++ ([10] ++ b!"%%EOF")))) := by
  obtain ⟨body, hne, e⟩ := drafts_end ds fileHeader.length none h
  refine ⟨_, fileHeader ++ body, ?_, by simp [fileHeader], rfl⟩
  unfold writeFile
  rw [e]
  simp

theorem starts_bare {e body : Bytes} {off : Nat} (hf : e = body ++ (b!"startxref" ++ ([10] ++ (showNat off ++ ([10] ++ b!"%%EOF"))))) (hne : body ≠ []) :
    StartsAt e off := by
  have hdig := (showNat_digits off).2
  have hd115 : (115 : Byte) ∉ showNat off := fun h => by have := hdig _ h; rw [digit_iff] at this; revert this; decide
  refine ⟨body, [10], showNat off, [10], [], by rw [hf, List.append_nil], hne, sep_lf, showNat_digits off, showNat_val off, ?_, by simp, ?_, ?_⟩
  · exact notStart_mk (by simp [Digit])
  · intro k hk
    have := occurs_length hk
    rw [hf] at this
    simp at this ⊢
    omega
  · intro k hk _
    obtain ⟨rest, hr⟩ := occurs_drop hk
    refine not_later (pat := 115) (c := 115) (t := b!"tartxref" ++ ([10] ++ (showNat off ++ ([10] ++ b!"%%EOF")))) (rest := b!"tartxref" ++ rest) hf ?_ hr
    simp [hd115]

theorem header_front {file rest : Bytes} (h : file = fileHeader ++ rest) (hl : 22 ≤ file.length) : HeaderAt file b!"1.7" 0 :=
  ⟨[], b!"%PDF-1.7", [10] ++ rest, h, rfl, .pdf b!"1.7" ⟨49, 55, by simp [Digit], by simp [Digit], rfl⟩, Or.inl rfl, fun _ _ _ _ _ _ => Nat.zero_le _, by simp, hl⟩

/-- What is added to a complete file does not finish the next revision. -/
theorem pending_show {e body : Bytes} {off : Nat} (hf : e = body ++ (b!"startxref" ++ ([10] ++ (showNat off ++ ([10] ++ b!"%%EOF"))))) {d : Draft} (hd : d.Ok) (hn : d.NoEnd)
    {start q : Nat} {prev : Option Nat} (hq : q < (d.show start prev).length) : Pending e ((10 :: d.show start prev).take q) := by
  intro s j _ hj _
  have hlen := occurs_length hj
  refine ⟨j, ?_, by assumption⟩
  have hj' : OccursAt b!"%%EOF" (e ++ 10 :: d.show start prev) j := by
    have := occurs_more ((10 :: d.show start prev).drop q) hj
    rwa [List.append_assoc, List.take_append_drop] at this
  rcases sep_occurs (by decide) hj' with h | ⟨h1, h⟩
  · exact occurs_in_left hj h
  · exfalso
    have := show_once hd hn h
    rw [List.length_append, List.length_take] at hlen
    simp at hlen
    omega

theorem show_length (d : Draft) (start : Nat) (prev : Option Nat) : 22 ≤ (d.show start prev).length := by
  rw [show_front]
  unfold place
  have := List.length_pos_iff.mpr (showNat_digits (start + (showBody d.items).length)).1
  have h2 : 4 ≤ (front d start prev).length := by unfold front; simp; omega
  simp
  omega

/-- A complete file with the beginning of another revision after it. -/
theorem reads_interrupted {clamps : Bool} {older : List Draft} {last : Draft} (hok : ∀ d ∈ older ++ [last], d.Ok) (hsmall : (writeFile (older ++ [last])).length < 10 ^ 10)
    {x e : Bytes} (he : writeFile (older ++ [last]) = e ++ [10]) (hp : Pending e x) (hn : EndNear (e ++ x)) (hb : clamps = true ∨ 1024 ≤ (e ++ x).length) :
    ReadsAs filtered clamps (e ++ x) older last := by
  have hne : older ++ [last] ≠ [] := by simp
  obtain ⟨e', body, h1, h2, h3⟩ := write_end (older ++ [last]) hne
  obtain rfl : e = e' := by rw [he] at h1; exact (List.append_inj' h1 rfl).1
  have hs : StartsAt e _ := starts_bare h3 h2
  have hu := updates_of hsmall (older ++ [last]) fileHeader.length none fileHeader [] [] hne hok (by unfold writeFile; simp) rfl (by simp [fileHeader]) (Or.inl ⟨rfl, rfl⟩)
  rw [List.append_nil, he] at hu
  have hsec : SectionsFrom (fun d raw data => filtered d raw = .ok data) e _ _ := .inl (updates_less hu)
  have hat : ∀ n g o, contentOf (older ++ [last]) n g = some o → ∃ off rest d i, CurrentAt (revsOf fileHeader.length none (older ++ [last])) n g off ∧ e.drop off = showItem i ++ rest ∧
      d ∈ older ++ [last] ∧ i ∈ d.items ∧ i.num = n ∧ i.gen = g ∧ i.val = o := by
    intro n g o h
    obtain ⟨off, rest, d, i, c1, c2, c3⟩ := content_at (file := writeFile (older ++ [last])) (older ++ [last]) fileHeader.length none fileHeader [] n g o hok (by unfold writeFile; simp) rfl h
    rw [he] at c2
    obtain ⟨rest', c2⟩ := item_less c2
    exact ⟨off, rest', d, i, c1, c2, c3⟩
  have hc : Spec.Holds (fun d raw data => filtered d raw = .ok data) AsIs e 0 (revsOf fileHeader.length none (older ++ [last])) (contentOf (older ++ [last])) := by
    refine holds_listed ?_ ⟨(older ++ [last]).flatMap fun d => d.items.map fun i => (i.num, i.gen), fun n g h => ?_⟩ ?_
    · intro n g o h
      obtain ⟨off, rest, d, i, h1, h2, h3, h4, rfl, rfl, rfl⟩ := hat n g o h
      exact ⟨item_noPack (hok d h3) h4, off, showItem i, rest, h1, h2, .inl (item_text i ((hok d h3).vals i h4))⟩
    · cases hc : contentOf (older ++ [last]) n g with
      | none => exact absurd hc h
      | some o =>
        obtain ⟨off, rest, d, i, h1, h2, h3, h4, rfl, rfl, rfl⟩ := hat n g o hc
        exact List.mem_flatMap.mpr ⟨d, h3, List.mem_map.mpr ⟨i, h4, rfl⟩⟩
    · intro r hr n g v o ho
      rw [own_none _ _ _ r hr] at ho
      cases ho
  have hlen : 22 ≤ e.length := by
    obtain ⟨prev, hw⟩ := write_split older
    obtain ⟨_, _, hw⟩ := hw last []
    have := congrArg List.length (he.symm.trans hw)
    have h9 : 9 ≤ (writeFile older).length := by unfold writeFile; simp [fileHeader]
    have := show_length last (writeFile older).length prev
    simp at *
    omega
  have hh : HeaderAt e b!"1.7" 0 := by
    have : ∃ rest, e = fileHeader ++ rest := by
      have h9 : (writeFile (older ++ [last])).take 9 = fileHeader := by unfold writeFile; simp [fileHeader]
      rw [he, List.take_append_of_le_length (by omega)] at h9
      exact ⟨e.drop 9, by rw [← h9, List.take_append_drop]⟩
    obtain ⟨rest, hr⟩ := this
    exact header_front hr hlen
  obtain ⟨r, rs, er, prev, hdict⟩ := revs_cons older last fileHeader.length none
  rw [er] at hsec hc
  obtain ⟨F, hF⟩ := C134_appended clamps e x _ 0 _ r rs _ hh hs hb hsec hc hp hn
  refine ⟨F, fun fuel hf => ?_⟩
  obtain ⟨o, h1, h2, h3, h4⟩ := hF fuel hf
  refine ⟨o, h1, h2, fun key hkey v hv => ?_, h4⟩
  refine (h3 key ?_).1 v ?_
  · simp only [List.mem_cons, List.not_mem_nil, or_false] at hkey ⊢
    rcases hkey with h | h | h | h | h <;> simp [h]
  · rw [hdict, dict_other, hv]
    simp only [List.mem_cons, List.not_mem_nil, or_false] at hkey
    rcases hkey with rfl | rfl | rfl | rfl | rfl <;> decide

/-- `older ++ [last]` are the revisions of `ds` which are finished after `p` bytes: all of their text is there, but perhaps the last line feed; and the
next revision, if there is one, lacks more than that. -/
def Finished (ds : List Draft) (p : Nat) (older : List Draft) (last : Draft) : Prop :=
  ∃ newer, ds = older ++ last :: newer ∧ (writeFile (older ++ [last])).length ≤ p + 1 ∧
    ∀ next newer', newer = next :: newer' → p + 1 < (writeFile (older ++ [last, next])).length

/-- What is there after `p` bytes if a revision is finished. -/
theorem finished_bytes {ds : List Draft} {p : Nat} {older : List Draft} {last : Draft} (h : Finished ds p older last) : ∃ e d start prev q, writeFile (older ++ [last]) = e ++ [10] ∧
    (writeFile ds).take p = e ++ (10 :: d.show start prev).take q ∧ q < (d.show start prev).length ∧ d ∈ ds ∧ (p ≤ (writeFile ds).length → e.length + q = p) := by
  obtain ⟨newer, rfl, h1, h2⟩ := h
  obtain ⟨e, body, he, _, _⟩ := write_end (older ++ [last]) (by simp)
  have hel : (writeFile (older ++ [last])).length = e.length + 1 := by rw [he]; simp
  cases newer with
  | nil =>
    have hlast := show_length last 0 none
    refine ⟨e, last, 0, none, min (p - e.length) 1, he, ?_, by omega, by simp, fun hp => by omega⟩
    rw [he, List.take_append, List.take_of_length_le (by omega)]
    congr 1
    have : ∀ n, ([10] : Bytes).take n = (10 :: last.show 0 none).take (min n 1) := by
      intro n
      rcases n with _ | n
      · rfl
      · rw [show min (n + 1) 1 = 1 by omega]; simp
    exact this _
  | cons next newer =>
    have h3 := h2 next newer rfl
    obtain ⟨prev, hw⟩ := write_split (older ++ [last])
    obtain ⟨Q, hw1, hw2⟩ := hw next newer
    have e1 : older ++ last :: next :: newer = older ++ [last] ++ next :: newer := by simp
    have e2 : older ++ [last, next] = older ++ [last] ++ [next] := by simp
    rw [e2, hw2, List.length_append] at h3
    have e3 : (writeFile (older ++ [last] ++ next :: newer)).take p = e ++ (10 :: next.show (writeFile (older ++ [last])).length prev).take (p - e.length) := by
      rw [hw1]
      generalize next.show (writeFile (older ++ [last])).length prev = S at *
      rw [he, List.append_assoc, List.take_append, List.take_of_length_le (by omega)]
      congr 1
      rw [List.singleton_append, ← List.cons_append, List.take_append_of_le_length (by simp; omega)]
    rw [← e1] at e3
    exact ⟨e, next, (writeFile (older ++ [last])).length, prev, p - e.length, he, e3, by omega, by simp, fun _ => by omega⟩

/-- Either a revision is finished, or not even the first one. -/
theorem finished_or {ds : List Draft} (hne : ds ≠ []) (p : Nat) : (∃ older last, Finished ds p older last) ∨ ∃ d newer, ds = d :: newer ∧ p + 1 < (writeFile [d]).length := by
  rcases crash_point p _ ds rfl with h | ⟨older, d, newer, rfl, h1, h2⟩
  · rcases List.eq_nil_or_concat ds with rfl | ⟨older, last, rfl⟩
    · exact absurd rfl hne
    · rw [List.concat_eq_append] at *
      rcases h with h | h
      · exact absurd h hne
      · exact .inl ⟨older, last, [], rfl, h, fun _ _ e => by cases e⟩
  · rcases List.eq_nil_or_concat older with rfl | ⟨a, b, rfl⟩
    · exact .inr ⟨d, newer, rfl, h2⟩
    · rw [List.concat_eq_append] at *
      rcases h1 with h1 | h1
      · simp at h1
      · exact .inl ⟨a, b, d :: newer, by simp, h1, fun n _ e => by cases e; simpa using h2⟩

theorem small_fails {clamps : Bool} {file rest : Bytes} (hh : file = fileHeader ++ rest ∨ file.length < 22) (hb : ¬(clamps = true ∨ 1024 ≤ file.length)) :
    ∃ e ∈ [Exc.typeError, Exc.osError], ∀ fuel, openDoc filtered clamps fuel file = .error e := by
  by_cases hl : 22 ≤ file.length
  · refine ⟨.osError, by simp, fun fuel => ?_⟩
    have hc : clamps = false := by cases clamps with
      | true => exact absurd (.inl rfl) hb
      | false => rfl
    rcases hh with hh | hh
    · obtain ⟨junk, h, rest', e1, h1, h2, h3, h4, h5, h6⟩ := header_front hh hl
      unfold openDoc
      have hlt : file.length < 1024 := by
        by_cases h : file.length < 1024
        · exact h
        · exact absurd (.inr (by omega)) hb
      have hv : pdfHeader file = .ok (b!"1.7", junk.length) := by
        rw [e1]
        rw [e1] at h4 h6
        exact C25_version junk _ h rest' h2 h3 (by rw [h1]; exact h4) (by rw [h1]; exact h5) h6
      rw [hv, hc, C26_small_file_on_disk _ hlt]
    · omega
  · refine ⟨.typeError, by simp, fun fuel => ?_⟩
    unfold openDoc
    rw [C25_tiny_file _ (by omega)]

theorem end_near {e x body : Bytes} {off : Nat} (hf : e = body ++ (b!"startxref" ++ ([10] ++ (showNat off ++ ([10] ++ b!"%%EOF"))))) (hx : x.length ≤ 1018) : EndNear (e ++ x) := by
  have hE : OccursAt b!"%%EOF" e (body ++ (b!"startxref" ++ ([10] ++ (showNat off ++ [10])))).length := ⟨_, [], by rw [hf]; simp, rfl⟩
  refine ⟨_, occurs_more x hE, ?_⟩
  rw [List.length_append, hf]
  simp
  omega

/-- C134: a file is written as a sequence of revisions, none of which contains the data of a stream with `%%EOF` in it, and writing is interrupted after any number
of bytes. Then the file reads as after the last revision which was finished; or opening it raises an exception. It never reads as anything else. -/
theorem C134_interrupted (clamps : Bool) (ds : List Draft) (hok : ∀ d ∈ ds, d.Ok) (hend : ∀ d ∈ ds, d.NoEnd) (hsmall : (writeFile ds).length < 10 ^ 10) (hne : ds ≠ []) (p : Nat) :
    (∃ e ∈ [Exc.parser, Exc.typeError, Exc.osError], ∀ fuel, openDoc filtered clamps fuel ((writeFile ds).take p) = .error e) ∨
      ∃ older last, Finished ds p older last ∧ ReadsAs filtered clamps ((writeFile ds).take p) older last := by
  have hfront : ∃ rest, (writeFile ds).take p = fileHeader ++ rest ∨ ((writeFile ds).take p).length < 22 := by
    by_cases hp : p < 22
    · exact ⟨[], .inr (by rw [List.length_take]; omega)⟩
    · unfold writeFile
      rw [List.take_append, List.take_of_length_le (by simp [fileHeader]; omega)]
      exact ⟨_, .inl rfl⟩
  obtain ⟨rest, hfront⟩ := hfront
  by_cases hb : clamps = true ∨ 1024 ≤ ((writeFile ds).take p).length
  · by_cases hl : ((writeFile ds).take p).length < 22
    · refine .inl ⟨.typeError, by simp, fun fuel => ?_⟩
      unfold openDoc
      rw [C25_tiny_file _ hl]
    have hh : HeaderAt ((writeFile ds).take p) b!"1.7" 0 := by
      rcases hfront with h | h
      · exact header_front h (by omega)
      · omega
    by_cases hn : EndNear ((writeFile ds).take p)
    · rcases finished_or hne p with ⟨older, last, hfin⟩ | ⟨d, newer, rfl, hd⟩
      · right
        refine ⟨older, last, hfin, ?_⟩
        obtain ⟨e, d, start, prev, q, h1, h2, h3, h4, _⟩ := finished_bytes hfin
        obtain ⟨newer, rfl, h5, h6⟩ := hfin
        obtain ⟨e', body, he', _, hbody⟩ := write_end (older ++ [last]) (by simp)
        obtain rfl : e = e' := by rw [h1] at he'; exact (List.append_inj' he' rfl).1
        rw [h2] at hn hb ⊢
        refine reads_interrupted (fun x hx => hok x (by simp at hx ⊢; rcases hx with h | h <;> simp [h])) ?_ h1 (pending_show hbody (hok d h4) (hend d h4) h3) hn hb
        obtain ⟨prev', hw⟩ := write_split older
        obtain ⟨Q, hw1, hw2⟩ := hw last newer
        rw [hw1] at hsmall
        rw [hw2]
        simp at hsmall ⊢
        omega
      · exfalso
        obtain ⟨j, hj, _⟩ := hn
        obtain ⟨prev, hw⟩ := write_split []
        obtain ⟨Q, hw1, hw2⟩ := hw d newer
        rw [List.nil_append] at hw1 hw2
        have hj' := occurs_more ((writeFile (d :: newer)).drop p) hj
        rw [List.take_append_drop] at hj'
        have hlen := occurs_length hj
        rw [List.length_take] at hlen
        have hj2 : OccursAt b!"%%EOF" (writeFile [d]) j := by
          rw [hw1, ← List.append_assoc, ← hw2] at hj'
          exact occurs_in_left hj' (by omega)
        rw [hw2] at hj2 hd
        have e0 : writeFile [] = b!"%PDF-1.7" ++ [10] := by unfold writeFile fileHeader; simp [showDrafts]
        rw [e0] at hj2
        rw [e0] at hd
        rw [List.append_assoc, List.singleton_append] at hj2
        rcases sep_occurs (by decide) hj2 with h | ⟨h, hs⟩
        · have := occurs_in_left hj2 h
          obtain ⟨a, b, e, hab⟩ := this
          have e2 := congrArg (fun l : Bytes => l.filter (· == 37)) e
          simp only [List.filter_append] at e2
          have := congrArg List.length e2
          simp at this
          omega
        · have := show_once (hok d (by simp)) (hend d (by simp)) hs
          rw [← e0] at hd
          rw [List.length_append] at hd
          have h8 : (b!"%PDF-1.7").length = 8 := rfl
          have h9 : (writeFile []).length = 9 := by rw [e0]; rfl
          rw [h8] at this h
          rw [← e0] at this
          have h5 : (b!"%%EOF").length = 5 := rfl
          rw [h5] at hlen
          omega
    · refine .inl ⟨.parser, by simp, fun fuel => ?_⟩
      exact noEnd_fails hh hb hn fuel
  · obtain ⟨e, he, h⟩ := small_fails hfront hb
    exact .inl ⟨e, by simp at he ⊢; rcases he with h | h <;> simp [h], h⟩

/-! ### C135: the document stays readable -/

/-- C135, the part which holds: if the bytes after the last finished revision are at most 1018, the file reads as after that revision.
Missing: longer updates (`C135_counterexample`). -/
theorem C135_readable_partial (clamps : Bool) (ds : List Draft) (hok : ∀ d ∈ ds, d.Ok) (hend : ∀ d ∈ ds, d.NoEnd) (hsmall : (writeFile ds).length < 10 ^ 10) (p : Nat) (hp : p ≤ (writeFile ds).length)
    (older : List Draft) (last : Draft) (hfin : Finished ds p older last) (hb : clamps = true ∨ 1024 ≤ p) (hnear : p ≤ (writeFile (older ++ [last])).length + 1017) :
    ReadsAs filtered clamps ((writeFile ds).take p) older last := by
  obtain ⟨e, d, start, prev, q, h1, h2, h3, h4, h5⟩ := finished_bytes hfin
  have h5 := h5 hp
  obtain ⟨newer, rfl, _, h6⟩ := hfin
  obtain ⟨e', body, he', _, hbody⟩ := write_end (older ++ [last]) (by simp)
  obtain rfl : e = e' := by rw [h1] at he'; exact (List.append_inj' he' rfl).1
  have hlen : ((writeFile (older ++ last :: newer)).take p).length = p := by rw [List.length_take]; omega
  rw [h1, List.length_append] at hnear
  rw [← hlen, h2] at hb
  rw [h2]
  refine reads_interrupted (fun x hx => hok x (by simp at hx ⊢; rcases hx with h | h <;> simp [h])) ?_ h1 (pending_show hbody (hok d h4) (hend d h4) h3) (end_near hbody ?_) hb
  · obtain ⟨prev', hw⟩ := write_split older
    obtain ⟨Q, hw1, hw2⟩ := hw last newer
    rw [hw1] at hsmall
    rw [hw2]
    simp at hsmall ⊢
    omega
  · rw [List.length_take]
    simp at hnear
    omega

/-- C135: with more than that after the last finished revision, opening the file raises a ParserException. -/
theorem C135_lost (clamps : Bool) (ds : List Draft) (hok : ∀ d ∈ ds, d.Ok) (hend : ∀ d ∈ ds, d.NoEnd) (p : Nat) (hp : p ≤ (writeFile ds).length)
    (older : List Draft) (last : Draft) (hfin : Finished ds p older last) (hb : clamps = true ∨ 1024 ≤ p) (hfar : (writeFile (older ++ [last])).length + 1017 < p) (fuel : Nat) :
    openDoc filtered clamps fuel ((writeFile ds).take p) = .error .parser := by
  obtain ⟨e, d, start, prev, q, h1, h2, h3, h4, h5⟩ := finished_bytes hfin
  have h5 := h5 hp
  have hlen : ((writeFile ds).take p).length = p := by rw [List.length_take]; omega
  have hw : ∃ rest, (writeFile ds).take p = fileHeader ++ rest := by
    unfold writeFile
    rw [List.take_append, List.take_of_length_le (by simp [fileHeader]; omega)]
    exact ⟨_, rfl⟩
  obtain ⟨rest, hw⟩ := hw
  refine noEnd_fails (header_front hw (by omega)) (by rw [hlen]; exact hb) ?_ fuel
  rintro ⟨j, hj, hn⟩
  rw [hlen] at hn
  rw [h2] at hj
  have hl := occurs_length hj
  have h55 : (b!"%%EOF").length = 5 := rfl
  have hj' : OccursAt b!"%%EOF" (e ++ 10 :: d.show start prev) j := by
    have := occurs_more ((10 :: d.show start prev).drop q) hj
    rwa [List.append_assoc, List.take_append_drop] at this
  rw [h1, List.length_append] at hfar
  rcases sep_occurs (by decide) hj' with h | ⟨h, hs⟩
  · simp at hfar
    omega
  · have := show_once (hok d h4) (hend d h4) hs
    rw [List.length_append, List.length_take] at hl
    simp at hl
    omega

theorem drafts_noEnd : ∀ d ∈ [firstDraft] ++ [secondDraft], d.NoEnd := by
  intro d hd i hi e data h
  simp only [List.cons_append, List.nil_append, List.mem_cons, List.not_mem_nil, or_false] at hd
  rcases hd with rfl | rfl
  · simp [firstDraft] at hi
    rcases hi with rfl | rfl | rfl | rfl <;> simp at h
  · simp [secondDraft] at hi
    rcases hi with rfl | rfl <;> simp at h
    rw [← h.2]
    exact noEOF_free (by decide)

/-- The hypotheses of C134 and C135 are met: the second revision is interrupted in its trailer, and the file reads as after the first. -/
example : ReadsAs plain true ((writeFile ([firstDraft] ++ [secondDraft])).take 600) [] firstDraft :=
  C135_readable_partial true ([firstDraft] ++ [secondDraft]) drafts_ok drafts_noEnd (by decide +kernel) 600 (by decide +kernel) [] firstDraft
    ⟨[secondDraft], rfl, by decide +kernel, fun next newer' e => by cases e; decide +kernel⟩ (.inl rfl) (by decide +kernel)

/-- An update with a stream of 1100 bytes. -/
def largeData : Bytes := List.replicate 1100 97

def largeDraft : Draft :=
  { items := [⟨5, 0, .stream [(b!"Length", .int 1100)] largeData⟩],
    trailer := [(b!"Size", .int 6), (b!"Root", .ref 1 0)] }

theorem large_ok : ∀ d ∈ [firstDraft] ++ [largeDraft], d.Ok ∧ d.NoEnd := by
  intro d hd
  simp only [List.cons_append, List.nil_append, List.mem_cons, List.not_mem_nil, or_false] at hd
  rcases hd with rfl | rfl
  · exact ⟨drafts_ok _ (by simp), drafts_noEnd _ (by simp)⟩
  · refine ⟨⟨by decide, by simp [largeDraft, WritableValue, Writable, WritableEnts, show largeData.length = 1100 from List.length_replicate], ?_, by decide, by decide, by decide,
      by simp [largeDraft, Writable, WritableEnts], by decide⟩, ?_⟩
    · intro i hi e data h v hv
      simp only [largeDraft, List.mem_singleton] at hi
      subst hi
      injection h with h _
      rw [← h] at hv
      simp at hv
    · intro i hi e data h
      simp only [largeDraft, List.mem_singleton] at hi
      subst hi
      injection h with _ h
      rw [← h]
      exact noEOF_free fun hm => by have := (List.mem_replicate.mp hm).2; revert this; decide

/-- C135 is false: the file with one revision is readable; when writing a large update is interrupted, opening it raises a ParserException. -/
theorem C135_counterexample : ReadsAs plain true (writeFile [firstDraft]) [] firstDraft ∧
    ∀ fuel, openDoc plain true fuel ((writeFile ([firstDraft] ++ [largeDraft])).take 1500) = .error .parser := by
  refine ⟨C93_read_back true [] firstDraft (fun d hd => drafts_ok d (by simp at hd; simp [hd])) (by decide +kernel) (.inl rfl), fun fuel => ?_⟩
  exact C135_lost true _ (fun d hd => (large_ok d hd).1) (fun d hd => (large_ok d hd).2) 1500 (by decide +kernel) [] firstDraft
    ⟨[largeDraft], rfl, by decide +kernel, fun next newer' e => by cases e; decide +kernel⟩ (.inl rfl) (by decide +kernel) fuel

/-- An update whose stream contains the end of a file. -/
def embeddingDraft : Draft :=
  { items := [⟨6, 0, .stream [(b!"Length", .int 20)] b!"startxref\n214\n%%EOF\n"⟩],
    trailer := [(b!"Size", .int 7), (b!"Root", .ref 1 0)] }

/-- Why C134 excludes streams with `%%EOF` in them: interrupted after such a stream, the file reads as after the first revision, though the second was finished. -/
theorem C134_embedded : (writeFile [firstDraft, secondDraft]).length ≤ 662 ∧
    (openDoc plain true 10 (writeFile [firstDraft, secondDraft])).map (fun p => dictGet p.trailer b!"Size") = .ok (some (.int 6)) ∧
    (openDoc plain true 10 ((writeFile [firstDraft, secondDraft, embeddingDraft]).take 662)).map (fun p => dictGet p.trailer b!"Size") = .ok (some (.int 5)) := by
  decide +kernel

end PdfReader
