/-
  Bytes added at the end of a file do not change what is found in it.
-/
import Verif.Spec.Crash
import Verif.Props.Amend
import Verif.Lemmas.Hidden

namespace PdfReader

open Spec

variable {decoded : List (Bytes × Obj) → Bytes → Bytes → Prop}

theorem drop_more {f x t rest : Bytes} {off : Nat} (ht : t ≠ []) (h : f.drop off = t ++ rest) : (f ++ x).drop off = t ++ (rest ++ x) := by
  have hoff : off ≤ f.length := by
    by_cases h' : off ≤ f.length
    · exact h'
    · rw [List.drop_eq_nil_of_le (by omega)] at h
      have := congrArg List.length h
      have := List.length_pos_iff.mpr ht
      simp at *
      omega
  rw [List.drop_append_of_le_length hoff, h, List.append_assoc]

theorem ind_ne {n g : Nat} {o : Obj} {t : Bytes} (h : IndText n g o t) : t ≠ [] := by
  cases h
  simp

theorem len_ne {ln lg len n g : Nat} {o : Obj} {t : Bytes} (h : LenText ln lg len n g o t) : t ≠ [] := by
  cases h
  simp

theorem objText_more {f : Bytes} (x : Bytes) {revs : List Revision} {content : Spec.Content} {n g : Nat} {o : Obj} {t : Bytes} (h : ObjText f revs content n g o t) :
    ObjText (f ++ x) revs content n g o t := by
  rcases h with h | ⟨ln, lg, len, off, t', rest, h1, h2, h3, h4, h5⟩
  · exact .inl h
  · exact .inr ⟨ln, lg, len, off, t', rest ++ x, h1, h2, h3, drop_more (ind_ne h5) h4, h5⟩

theorem objText_ne {f : Bytes} {revs : List Revision} {content : Spec.Content} {n g : Nat} {o : Obj} {t : Bytes} (h : ObjText f revs content n g o t) : t ≠ [] := by
  rcases h with h | ⟨_, _, _, _, _, _, h, _⟩
  · exact ind_ne h
  · exact len_ne h

theorem fileBody_more {written : Nat → Nat → Obj → Obj → Prop} {f x : Bytes} {revs : List Revision} {content : Spec.Content} {es : List (List ((Nat × Nat) × Obj))} {u : Bytes}
    (h : FileBody decoded written f revs content es u) : FileBody decoded written (f ++ x) revs content es u := by
  induction h with
  | nil => exact .nil
  | obj n g o w defs es s t u h1 h2 h3 h4 h5 _ ih => exact .obj n g o w defs es s t u h1 (objText_more x h2) h3 h4 h5 ih
  | startxref es s s₁ ds u h1 h2 h3 h4 h5 _ ih => exact .startxref es s s₁ ds u h1 h2 h3 h4 h5 ih

theorem holds_more {written : Nat → Nat → Obj → Obj → Prop} {f : Bytes} (x : Bytes) {start : Nat} {revs : List Revision} {content : Spec.Content}
    (h : Spec.Holds decoded written f start revs content) : Spec.Holds decoded written (f ++ x) start revs content := by
  obtain ⟨⟨es, body, tail, hb, hf, hc⟩, h2, h3, h4⟩ := h
  refine ⟨?_, h2, h3, h4⟩
  have hb' : ∃ tail', (f ++ x).drop start = body ++ tail' := by
    by_cases hn : body = []
    · exact ⟨(f ++ x).drop start, by rw [hn]; rfl⟩
    · exact ⟨_, drop_more hn hb⟩
  obtain ⟨tail', hb'⟩ := hb'
  refine ⟨es, body, tail', hb', fileBody_more hf, fun n g o ho => ?_⟩
  rcases hc n g o ho with ⟨off, t, rest, w, defs, c1, c2, c3, c4⟩ | h
  · exact .inl ⟨off, t, rest ++ x, w, defs, c1, drop_more (objText_ne c3) c2, objText_more x c3, c4⟩
  · exact .inr h

theorem table_more {f : Bytes} (x : Bytes) {off : Nat} {r : Revision} (h : TableAt f off r) : TableAt (f ++ x) off r := by
  obtain ⟨s, subs, u, s₁, s₂, raw, t, rest, h1, h2⟩ := h
  refine ⟨s, subs, u, s₁, s₂, raw, t, rest ++ x, ?_, h2⟩
  have hne : f.drop off ≠ [] := by rw [h1]; exact List.cons_ne_nil _ _
  have := drop_more (x := x) hne (List.append_nil _).symm
  rw [this, h1]
  simp only [List.append_assoc, List.cons_append, List.nil_append]

theorem sections_more {f : Bytes} (x : Bytes) {off : Nat} {revs : List Revision} (h : SectionsFrom decoded f off revs) : SectionsFrom decoded (f ++ x) off revs := by
  rcases h with h | h
  · left
    induction h with
    | oldest off r h1 h2 => exact .oldest off r (table_more x h1) h2
    | newer off p r rs h1 h2 h3 _ ih => exact .newer off p r rs (table_more x h1) h2 h3 ih
  · exact .inr (updates_append h)

/-! ### The header -/

theorem hdr_first {v h : Bytes} (hh : Hdr v h) : h.head? = some 37 ∧ (37 : Byte) ∉ h.tail ∧ h ≠ [] := by
  cases hh with
  | pdf v hv =>
    obtain ⟨a, b, ha, hb, rfl⟩ := hv
    refine ⟨rfl, ?_, by simp⟩
    have : ∀ c : Byte, Digit c → (37 : Byte) ≠ c := fun c hc e => by subst e; rw [digit_iff] at hc; revert hc; decide
    simp [this a ha, this b hb]
  | ips u v hu hv =>
    obtain ⟨a, b, ha, hb, rfl⟩ := hu
    obtain ⟨c, d, hc, hd, rfl⟩ := hv
    refine ⟨rfl, ?_, by simp⟩
    have : ∀ c : Byte, Digit c → (37 : Byte) ≠ c := fun c hc e => by subst e; rw [digit_iff] at hc; revert hc; decide
    simp [this a ha, this b hb, this c hc, this d hd]

theorem header_more {f v : Bytes} (x : Bytes) {k : Nat} (h : HeaderAt f v k) : HeaderAt (f ++ x) v k := by
  obtain ⟨junk, h, rest, e, h1, h2, h3, h4, h5, h6⟩ := h
  refine ⟨junk, h, rest ++ x, by rw [e]; simp, h1, h2, h3, ?_, h5, by simp; omega⟩
  intro a h' b v' e' hh'
  by_cases hk : k ≤ a.length
  · exact hk
  exfalso
  obtain ⟨p1, p2, p3⟩ := hdr_first h2
  obtain ⟨q1, q2, q3⟩ := hdr_first hh'
  have hget : (f ++ x)[k]? = some 37 := by
    rw [e, List.append_assoc, ← h1, List.getElem?_append_right (Nat.le_refl _), Nat.sub_self]
    cases h with
    | nil => exact absurd rfl p3
    | cons c h =>
      simp at p1
      subst p1
      rfl
  by_cases hl : a.length + h'.length ≤ k
  · refine absurd (h4 a h' (f.drop (a.length + h'.length)) v' ?_ hh') hk
    have hkf : k ≤ f.length := by rw [e]; simp; omega
    have := congrArg (List.take (a.length + h'.length)) e'
    rw [List.take_append_of_le_length (by omega), ← List.append_assoc, List.take_left' (by simp)] at this
    rw [← List.append_assoc, ← this, List.take_append_drop]
  · rw [e', List.getElem?_append_right (by omega), List.getElem?_append_left (by omega)] at hget
    cases h' with
    | nil => exact absurd rfl q3
    | cons c h' =>
      obtain ⟨m, hm⟩ : ∃ m, k - a.length = m + 1 := ⟨k - a.length - 1, by omega⟩
      rw [hm, List.getElem?_cons_succ] at hget
      exact q2 (List.mem_of_getElem? hget)

/-! ### startxref -/

theorem occurs_more {pat f : Bytes} (x : Bytes) {k : Nat} (h : OccursAt pat f k) : OccursAt pat (f ++ x) k := by
  obtain ⟨a, b, rfl, rfl⟩ := h
  exact ⟨a, b ++ x, by simp, rfl⟩

theorem occurs_length {pat f : Bytes} {k : Nat} (h : OccursAt pat f k) : k + pat.length ≤ f.length := by
  obtain ⟨a, b, rfl, rfl⟩ := h
  simp

theorem occurs_split {pat f : Bytes} {k : Nat} (h : OccursAt pat f k) : f = f.take k ++ (pat ++ f.drop (k + pat.length)) := by
  obtain ⟨a, b, rfl, rfl⟩ := h
  rw [List.take_left, ← List.drop_drop, List.drop_left, List.drop_left]

/-- The last occurrence. -/
theorem last_occurs {pat f : Bytes} : ∀ (n k : Nat), f.length ≤ n + k → OccursAt pat f k → ∃ j, k ≤ j ∧ OccursAt pat f j ∧ ∀ i, OccursAt pat f i → i ≤ j := by
  intro n
  induction n with
  | zero =>
    intro k hk h
    exact ⟨k, Nat.le_refl _, h, fun i hi => by have := occurs_length hi; omega⟩
  | succ n ih =>
    intro k hk h
    by_cases he : ∃ i, OccursAt pat f i ∧ k < i
    · obtain ⟨i, hi, hlt⟩ := he
      obtain ⟨j, h1, h2⟩ := ih i (by omega) hi
      exact ⟨j, by omega, h2⟩
    · refine ⟨k, Nat.le_refl _, h, fun i hi => ?_⟩
      by_cases hik : i ≤ k
      · exact hik
      · exact absurd ⟨i, hi, by omega⟩ he

theorem starts_more {f x : Bytes} {off : Nat} (h : StartsAt f off) (hp : Pending f x) (hn : EndNear (f ++ x)) : StartsAt (f ++ x) off := by
  obtain ⟨body, s, ds, r, tail, e, h1, h2, h3, h4, h5, h6, h7, h8⟩ := h
  obtain ⟨j0, hj0, hnear⟩ := hn
  obtain ⟨j, hj1, hj2, hj3⟩ := last_occurs (f ++ x).length j0 (by omega) hj0
  have hE : OccursAt b!"%%EOF" f (body ++ (b!"startxref" ++ (s ++ (ds ++ r)))).length := ⟨_, tail, by rw [e]; simp, rfl⟩
  have hjE := hj3 _ (occurs_more x hE)
  have hpre : f ++ x = (body ++ (b!"startxref" ++ (s ++ ds))) ++ (r ++ (b!"%%EOF" ++ tail) ++ x) := by rw [e]; simp
  have hsplit := occurs_split hj2
  have hlen : (body ++ (b!"startxref" ++ (s ++ ds))).length ≤ j := by simp at hjE ⊢; omega
  have htake : (f ++ x).take j = (body ++ (b!"startxref" ++ (s ++ ds))) ++ ((r ++ (b!"%%EOF" ++ tail) ++ x).take (j - (body ++ (b!"startxref" ++ (s ++ ds))).length)) := by
    rw [hpre, List.take_append, List.take_of_length_le hlen]
  generalize hr' : (r ++ (b!"%%EOF" ++ tail) ++ x).take (j - (body ++ (b!"startxref" ++ (s ++ ds))).length) = r' at htake
  have htail : ((f ++ x).drop (j + 5)).length ≤ 1018 := by rw [List.length_drop]; omega
  have hfull : f ++ x = body ++ (b!"startxref" ++ (s ++ (ds ++ (r' ++ (b!"%%EOF" ++ (f ++ x).drop (j + 5)))))) := by
    rw [htake] at hsplit
    refine hsplit.trans ?_
    simp
  have hj : (body ++ (b!"startxref" ++ (s ++ (ds ++ r')))).length = j := by
    have := congrArg List.length htake
    have hjl := occurs_length hj2
    rw [List.length_take] at this
    simp at this hjl ⊢
    omega
  refine ⟨body, s, ds, r', _, hfull, h1, h2, h3, h4, ?_, htail, ?_, ?_⟩
  · have : r' ++ (b!"%%EOF" ++ (f ++ x).drop (j + 5)) = r ++ (b!"%%EOF" ++ tail) ++ x := by
      have := hfull.symm.trans hpre
      simpa using this
    rw [this]
    cases r with
    | nil => exact notStart_mk (by simp [Digit])
    | cons c r => intro c' t' h; cases h; exact h5 c _ rfl
  · intro k hk
    rw [hj]
    exact hj3 k hk
  · intro k hk hkj
    rw [hj] at hkj
    obtain ⟨j', hj', hkj'⟩ := hp k j hk hj2 hkj
    have hjl := occurs_length hj'
    exact h8 k (occurs_in_left hk (by simp at hjl ⊢; omega)) (Nat.le_trans hkj' (h7 j' hj'))

theorem eofBack_none {file : Bytes} : ∀ (b k : Nat), k ≤ file.length → (∀ j, OccursAt b!"%%EOF" file j → j ≤ k → 0 < j → k < j + b → False) → eofBack file b k = none := by
  intro b k hk h
  cases he : eofBack file b k with
  | none => rfl
  | some r =>
    obtain ⟨h1, h2, h3, h4, _⟩ := eofBack_sound b k r hk he
    exact (h r h1 h3 h2 h4).elim

theorem noEnd_fails {filtered : List (Bytes × Obj) → Bytes → Res Bytes} {clamps : Bool} {file v : Bytes} {k : Nat} (hh : HeaderAt file v k) (hb : clamps = true ∨ 1024 ≤ file.length)
    (hn : ¬ EndNear file) (fuel : Nat) : openDoc filtered clamps fuel file = .error .parser := by
  obtain ⟨junk, h, rest, rfl, rfl, h2, h3, h4, h5, h6⟩ := hh
  unfold openDoc
  rw [C25_version junk v h rest h2 h3 h4 h5 h6]
  dsimp only
  generalize junk ++ (h ++ rest) = file at *
  have : xrefOffset clamps file = .error .parser := by
    unfold xrefOffset seekEof
    rw [if_neg (by rintro ⟨h1, h2⟩; rcases hb with h | h; · rw [h] at h2; cases h2
                   · omega), if_neg (by omega), eofBack_none _ _ (by omega)]
    intro j hj _ _ hlt
    have := occurs_length hj
    simp at this
    exact hn ⟨j, hj, by omega⟩
  rw [this]

end PdfReader
