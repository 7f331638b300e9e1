/-
  Where `%%EOF` occurs in what the writer writes; a file whose last bytes are missing.
-/
import Verif.Lemmas.Append

namespace PdfReader

open Spec

/-! ### The percent sign is written in data of streams only -/

theorem nat_free (n : Nat) : (37 : Byte) ∉ showNat n := fun h => by
  have := (showNat_digits n).2 _ h
  rw [digit_iff] at this
  revert this
  decide

theorem digits_free : ∀ w n : Nat, (37 : Byte) ∉ showDigits w n
  | 0, _ => by simp [showDigits]
  | w + 1, n => by
    rw [showDigits]
    have h : (37 : Byte) ≠ UInt8.ofNat (48 + n % 10) := fun e => by
      have := congrArg UInt8.toNat e
      rw [UInt8.toNat_ofNat'] at this
      simp at this
      omega
    simp only [List.mem_append, List.mem_singleton, not_or]
    exact ⟨digits_free w _, h⟩

theorem hexOf_free (v : Nat) : Spec.hexOf v ≠ 37 := by
  unfold Spec.hexOf
  by_cases h : v < 16
  · have : ∀ v : Fin 16, (b!"0123456789ABCDEF")[v.1]?.getD 48 ≠ 37 := by decide
    exact this ⟨v, h⟩
  · rw [List.getElem?_eq_none (by simp; omega)]
    decide

theorem octOf_free {v : Nat} (h : v < 8) : octOf v ≠ 37 := fun e => by
  unfold octOf at e
  have := congrArg UInt8.toNat e
  rw [UInt8.toNat_ofNat'] at this
  simp at this
  omega

theorem letter_free {c : Byte} (h : letter c = true) : c ≠ 37 := fun e => by subst e; revert h; decide

theorem name_free (n : Bytes) : (37 : Byte) ∉ showName n := by
  intro h
  unfold showName at h
  obtain ⟨c, _, h⟩ := List.mem_flatMap.mp h
  split at h
  · rename_i hl
    exact letter_free hl (List.mem_singleton.mp h).symm
  · simp only [List.mem_cons, List.not_mem_nil, or_false] at h
    rcases h with h | h | h
    · revert h; decide
    · exact hexOf_free _ h.symm
    · exact hexOf_free _ h.symm

theorem str_free (v : Bytes) : (37 : Byte) ∉ showStr v := by
  intro h
  unfold showStr at h
  obtain ⟨c, _, h⟩ := List.mem_flatMap.mp h
  have hc : c.toNat < 256 := c.toNat_lt
  split at h
  · rename_i hl
    rw [Bool.or_eq_true] at hl
    have h : c = 37 := (List.mem_singleton.mp h).symm
    rcases hl with hl | hl
    · exact letter_free hl h
    · subst h; revert hl; decide
  · simp only [List.mem_cons, List.not_mem_nil, or_false] at h
    rcases h with h | h | h | h
    · revert h; decide
    · exact octOf_free (by omega) h.symm
    · exact octOf_free (by omega) h.symm
    · exact octOf_free (by omega) h.symm

theorem point_free (k n : Nat) : (37 : Byte) ∉ showPoint k n := by
  unfold showPoint
  have h : (37 : Byte) ∉ List.replicate (k - (showNat n).length) 48 ++ showNat n := by
    rw [List.mem_append, not_or]
    exact ⟨fun h => by have := (List.mem_replicate.mp h).2; revert this; decide, nat_free n⟩
  simp only [List.mem_append, List.mem_cons, not_or]
  exact ⟨fun h' => h (List.mem_of_mem_take h'), by decide, fun h' => h (List.mem_of_mem_drop h')⟩

mutual
theorem obj_free : ∀ o : Obj, Writable o → (37 : Byte) ∉ showObj o
  | .null, _ => by rw [showObj]; decide
  | .bool true, _ => by rw [showObj]; decide
  | .bool false, _ => by rw [showObj]; decide
  | .int n, _ => by
    rw [showObj]
    unfold showInt
    split
    · simp [nat_free]
    · exact nat_free _
  | .real c e, _ => by
    rw [showObj]
    split
    · simp [point_free]
    · exact point_free _ _
  | .name n, _ => by rw [showObj]; simp [name_free]
  | .str v, _ => by rw [showObj]; simp [str_free]
  | .hex d, h => by
    rw [showObj]
    rw [Writable] at h
    have : (37 : Byte) ∉ d := fun hd => by have := h.2 _ hd; revert this; decide
    simp [this]
  | .ref n g, _ => by rw [showObj]; simp [nat_free]
  | .arr os, h => by rw [showObj]; rw [Writable] at h; simp [items_free os h]
  | .dict es, h => by rw [showObj]; rw [Writable] at h; simp [ents_free es h.2]
  | .stream _ _, h => by unfold Writable at h; exact h.elim
  | .token _, h => by unfold Writable at h; exact h.elim
  | .image _ _, h => by unfold Writable at h; exact h.elim
theorem items_free : ∀ os : List Obj, WritableItems os → (37 : Byte) ∉ showItems os
  | [], _ => by rw [showItems]; simp
  | o :: os, h => by
    rw [showItems]
    rw [WritableItems] at h
    simp [obj_free o h.1, items_free os h.2]
theorem ents_free : ∀ es : List (Bytes × Obj), WritableEnts es → (37 : Byte) ∉ showEnts es
  | [], _ => by rw [showEnts]; simp
  | (k, v) :: es, h => by
    rw [showEnts]
    rw [WritableEnts] at h
    simp [name_free, obj_free v h.1, ents_free es h.2]
end

theorem table_free : ∀ (is : List FileItem) (off : Nat), (37 : Byte) ∉ showTable off is
  | [], _ => by rw [showTable]; simp
  | i :: is, off => by
    rw [showTable]
    unfold showEntry
    simp [nat_free, digits_free, table_free is]

/-! ### Occurrences of `%%EOF` -/

/-- An occurrence lies before a byte which is not in the pattern, or after it. -/
theorem sep_occurs {pat a b : Bytes} {c : Byte} {k : Nat} (hc : c ∉ pat) (h : OccursAt pat (a ++ c :: b) k) :
    k + pat.length ≤ a.length ∨ (a.length < k ∧ OccursAt pat b (k - a.length - 1)) := by
  by_cases h1 : k + pat.length ≤ a.length
  · exact .inl h1
  obtain ⟨u, v, e, rfl⟩ := h
  by_cases h2 : a.length < u.length
  · right
    refine ⟨h2, ?_⟩
    have := congrArg (List.drop (a.length + 1)) e
    rw [← List.drop_drop, List.drop_left, List.drop_append_of_le_length (by omega)] at this
    exact ⟨u.drop (a.length + 1), v, this, by rw [List.length_drop]; omega⟩
  · exfalso
    have : (a ++ c :: b)[a.length]? = some c := by simp
    rw [e, List.getElem?_append_right (by omega)] at this
    have hlen : a.length - u.length < pat.length ∨ pat = [] := by
      cases pat with
      | nil => exact .inr rfl
      | cons => left; omega
    rcases hlen with hlen | hlen
    · rw [List.getElem?_append_left hlen] at this
      exact hc (List.mem_of_getElem? this)
    · subst hlen
      simp at h1
      omega

/-- `%%EOF` does not occur. -/
def NoEOF (s : Bytes) : Prop := ∀ k, ¬ OccursAt b!"%%EOF" s k

theorem noEOF_free {s : Bytes} (h : (37 : Byte) ∉ s) : NoEOF s := by
  rintro k ⟨a, b, rfl, _⟩
  exact h (by simp)

theorem noEOF_sep {a b : Bytes} {c : Byte} (hc : c ∉ b!"%%EOF") (ha : NoEOF a) (hb : NoEOF b) : NoEOF (a ++ c :: b) := by
  intro k hk
  rcases sep_occurs hc hk with h | h
  · exact ha k (occurs_in_left hk h)
  · exact hb _ h.2

theorem noEOF_value {o : Obj} (ho : WritableValue o) (hn : ∀ e data, o = .stream e data → NoEOF data) : NoEOF (showValue o) := by
  cases o with
  | stream d data =>
    rw [showValue]
    have e : 60 :: 60 :: (showEnts d ++ 62 :: 62 :: ([10] ++ (b!"stream" ++ ([10] ++ (data ++ ([10] ++ b!"endstream")))))) =
        (60 :: 60 :: (showEnts d ++ [62, 62])) ++ 10 :: (b!"stream" ++ 10 :: (data ++ 10 :: b!"endstream")) := by simp
    rw [e]
    exact noEOF_sep (by decide) (noEOF_free (by simp [ents_free d ho.2.1]))
      (noEOF_sep (by decide) (noEOF_free (by decide)) (noEOF_sep (by decide) (hn d data rfl) (noEOF_free (by decide))))
  | _ => exact noEOF_free (obj_free _ ho)

theorem noEOF_item {i : FileItem} (ho : WritableValue i.val) (hn : ∀ e data, i.val = .stream e data → NoEOF data) : NoEOF (showItem i) := by
  unfold showItem
  exact noEOF_sep (by decide) (noEOF_free (nat_free _)) (noEOF_sep (by decide) (noEOF_free (nat_free _)) (noEOF_sep (a := b!"obj") (c := 10) (by decide) (noEOF_free (by decide))
    (noEOF_sep (c := 10) (by decide) (noEOF_value ho hn) (noEOF_free (by decide)))))

theorem noEOF_body : ∀ is : List FileItem, (∀ i ∈ is, WritableValue i.val) → (∀ i ∈ is, ∀ e data, i.val = .stream e data → NoEOF data) → ∀ z, NoEOF z → NoEOF (showBody is ++ z)
  | [], _, _, z, hz => by rw [showBody]; exact hz
  | i :: is, h1, h2, z, hz => by
    rw [showBody, List.append_assoc, List.cons_append]
    exact noEOF_sep (by decide) (noEOF_item (h1 i (by simp)) (h2 i (by simp))) (noEOF_body is (fun j hj => h1 j (by simp [hj])) (fun j hj => h2 j (by simp [hj])) z hz)

theorem dict_free {d : Draft} (hd : d.Ok) (prev : Option Nat) : (37 : Byte) ∉ showEnts (d.dict prev) := by
  refine ents_free _ ?_
  cases prev with
  | none => exact hd.ents
  | some p => exact writableEnts_append _ _ hd.ents ⟨by unfold Writable; trivial, by unfold WritableEnts; trivial⟩

/-- The text of a revision up to the line feed before `startxref`. -/
def front (d : Draft) (start : Nat) (prev : Option Nat) : Bytes :=
  showBody d.items ++ (b!"xref" ++ 10 :: (showTable start d.items ++ (b!"trailer" ++ 10 :: (60 :: 60 :: (showEnts (d.dict prev) ++ [62, 62])))))

/-- The number after `startxref`. -/
def place (d : Draft) (start : Nat) : Bytes := showNat (start + (showBody d.items).length)

theorem show_front (d : Draft) (start : Nat) (prev : Option Nat) :
    d.show start prev = front d start prev ++ 10 :: (b!"startxref" ++ 10 :: (place d start ++ 10 :: (b!"%%EOF" ++ [10]))) := by
  unfold Draft.show front place
  simp

theorem noEOF_front {d : Draft} (hd : d.Ok) (hn : d.NoEnd) (start : Nat) (prev : Option Nat) : NoEOF (front d start prev) := by
  unfold front
  refine noEOF_body _ hd.vals hn _ (noEOF_free ?_)
  simp [table_free, dict_free hd]

/-- In a revision `%%EOF` occurs only at its end. -/
theorem show_once {d : Draft} (hd : d.Ok) (hn : d.NoEnd) {start : Nat} {prev : Option Nat} {k : Nat} (h : OccursAt b!"%%EOF" (d.show start prev) k) :
    k + 6 = (d.show start prev).length := by
  rw [show_front] at h ⊢
  rcases sep_occurs (by decide) h with h' | ⟨h1, h⟩
  · exact absurd (occurs_in_left h h') (noEOF_front hd hn start prev k)
  rcases sep_occurs (by decide) h with h' | ⟨h2, h⟩
  · exact absurd (occurs_in_left h h') (noEOF_free (by decide) _)
  rcases sep_occurs (by decide) h with h' | ⟨h3, h⟩
  · exact absurd (occurs_in_left h h') (noEOF_free (nat_free _) _)
  have := occurs_length h
  obtain ⟨rest, hr⟩ := occurs_drop h
  simp at h2 h3
  generalize hm : k - (front d start prev).length - 1 - (b!"startxref").length - 1 - (place d start).length - 1 = m at h this hr
  have hm0 : m = 0 := by
    rcases m with _ | _ | m
    · rfl
    · simp at hr
    · simp at this
  subst hm0
  simp at hm ⊢
  omega

/-! ### A file without its last byte -/

theorem drop_less {e t rest : Bytes} {off : Nat} (hl : ∃ a c, t = a ++ [c] ∧ c ≠ 10) (h : (e ++ [10]).drop off = t ++ rest) : ∃ rest', e.drop off = t ++ rest' := by
  obtain ⟨a, c, e1, hl⟩ := hl
  have ht : t ≠ [] := by rw [e1]; simp
  have hoff : off ≤ e.length := by
    by_cases h' : off ≤ e.length
    · exact h'
    · rw [List.drop_eq_nil_of_le (by simp; omega)] at h
      have := congrArg List.length h
      have := List.length_pos_iff.mpr ht
      simp at *
      omega
  rw [List.drop_append_of_le_length hoff] at h
  rcases List.eq_nil_or_concat rest with rfl | ⟨r, c, rfl⟩
  · rw [List.append_nil] at h
    rw [e1] at h
    have := (List.append_inj' h rfl).2
    simp at this
    exact absurd this.symm hl
  · rw [List.concat_eq_append, ← List.append_assoc] at h
    exact ⟨r, (List.append_inj' h rfl).1⟩

theorem table_less {e : Bytes} {off : Nat} {r : Revision} (h : TableAt (e ++ [10]) off r) : TableAt e off r := by
  obtain ⟨s, subs, u, s₁, s₂, raw, t, rest, h1, h2⟩ := h
  obtain ⟨rest', h3⟩ := drop_less (t := b!"xref" ++ (s ++ (u ++ (s₁ ++ (b!"trailer" ++ (s₂ ++ (60 :: 60 :: (t ++ [62, 62]))))))))
    (rest := rest)
    ⟨b!"xref" ++ (s ++ (u ++ (s₁ ++ (b!"trailer" ++ (s₂ ++ (60 :: 60 :: (t ++ [62]))))))), 62, by simp, by decide⟩ (by rw [h1]; simp only [List.append_assoc, List.cons_append, List.nil_append])
  exact ⟨s, subs, u, s₁, s₂, raw, t, rest', by rw [h3]; simp only [List.append_assoc, List.cons_append, List.nil_append], h2⟩

theorem updates_less {e : Bytes} {off : Nat} {revs : List Revision} (h : Updates (TableAt (e ++ [10])) off revs) : Updates (TableAt e) off revs := by
  induction h with
  | oldest off r h1 h2 => exact .oldest off r (table_less h1) h2
  | newer off p r rs h1 h2 h3 _ ih => exact .newer off p r rs (table_less h1) h2 h3 ih

theorem item_less {e rest : Bytes} {off : Nat} {i : FileItem} (h : (e ++ [10]).drop off = showItem i ++ rest) : ∃ rest', e.drop off = showItem i ++ rest' := by
  refine drop_less ⟨showNat i.num ++ (32 :: (showNat i.gen ++ (32 :: (b!"obj" ++ ([10] ++ (showValue i.val ++ ([10] ++ b!"endob"))))))), 106, ?_, by decide⟩ h
  unfold showItem
  simp

end PdfReader
