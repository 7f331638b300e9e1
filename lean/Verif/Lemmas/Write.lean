/-
  What the writer writes is a text of the object.
-/
import Verif.Spec.Write
import Verif.Lemmas.Whole

namespace PdfReader
open Spec

theorem digitOf : ∀ k : Nat, k < 10 → Digit (UInt8.ofNat (48 + k)) ∧ (UInt8.ofNat (48 + k)).toNat - 48 = k := by
  have : ∀ k : Fin 10, Digit (UInt8.ofNat (48 + k.val)) ∧ (UInt8.ofNat (48 + k.val)).toNat - 48 = k.val := by
    unfold Digit; decide
  exact fun k hk => this ⟨k, hk⟩

theorem decVal_snoc (a : Bytes) (k : Nat) (hk : k < 10) : decVal (a ++ [UInt8.ofNat (48 + k)]) = decVal a * 10 + k := by
  rw [decVal_append]
  simp only [decVal, List.length_cons, List.length_nil]
  rw [(digitOf k hk).2]
  omega

theorem showDigits_length : ∀ w n, (showDigits w n).length = w
  | 0, _ => rfl
  | w + 1, n => by rw [showDigits, List.length_append, showDigits_length w]; rfl

theorem showDigits_digit : ∀ w n, ∀ c ∈ showDigits w n, Digit c
  | 0, _, c, h => by cases h
  | w + 1, n, c, h => by
    rw [showDigits, List.mem_append] at h
    rcases h with h | h
    · exact showDigits_digit w _ c h
    · rw [List.mem_singleton] at h; rw [h]; exact (digitOf _ (Nat.mod_lt _ (by omega))).1

theorem showDigits_val : ∀ w n, n < 10 ^ w → decVal (showDigits w n) = n
  | 0, n, h => by simp at h; subst h; rfl
  | w + 1, n, h => by
    rw [showDigits, decVal_snoc _ _ (Nat.mod_lt _ (by omega)), showDigits_val w (n / 10) (by rw [Nat.pow_succ] at h; omega)]
    omega

theorem showUpTo_ok : ∀ w n, n < 10 ^ w → 0 < w → Digits (showUpTo w n) ∧ decVal (showUpTo w n) = n
  | 0, n, _, h => by omega
  | w + 1, n, h, _ => by
    rw [showUpTo]
    split
    · rename_i hn
      refine ⟨⟨by simp, fun c hc => ?_⟩, ?_⟩
      · rw [List.mem_singleton] at hc; rw [hc]; exact (digitOf n hn).1
      · have := decVal_snoc [] n hn
        simpa [decVal] using this
    · rename_i hn
      have hw : 0 < w := by
        cases w with
        | zero => simp at h; omega
        | succ w => omega
      obtain ⟨h1, h2⟩ := showUpTo_ok w (n / 10) (by rw [Nat.pow_succ] at h; omega) hw
      refine ⟨⟨by simp, fun c hc => ?_⟩, ?_⟩
      · rw [List.mem_append] at hc
        rcases hc with hc | hc
        · exact h1.2 c hc
        · rw [List.mem_singleton] at hc; rw [hc]; exact (digitOf _ (Nat.mod_lt _ (by omega))).1
      · rw [decVal_snoc _ _ (Nat.mod_lt _ (by omega)), h2]
        omega

theorem showNat_digits (n : Nat) : Digits (showNat n) :=
  (showUpTo_ok (n + 1) n (Nat.lt_of_lt_of_le (Nat.lt_pow_self (by omega : 1 < 10)) (Nat.pow_le_pow_right (by omega) (by omega))) (by omega)).1

theorem showNat_val (n : Nat) : decVal (showNat n) = n :=
  (showUpTo_ok (n + 1) n (Nat.lt_of_lt_of_le (Nat.lt_pow_self (by omega : 1 < 10)) (Nat.pow_le_pow_right (by omega) (by omega))) (by omega)).2

theorem showInt_text (n : Int) : IntText n (showInt n) := by
  unfold showInt
  split
  · have := IntText.mk true [45] (showNat n.natAbs) (Or.inr ⟨rfl, rfl⟩) (showNat_digits _)
    rw [showNat_val] at this
    simp only [if_true] at this
    rw [show (-(n.natAbs : Int)) = n by omega] at this
    exact this
  · have := IntText.mk false [] (showNat n.natAbs) (Or.inl ⟨rfl, Or.inl rfl⟩) (showNat_digits _)
    rw [showNat_val] at this
    simp only [Bool.false_eq_true, if_false] at this
    rw [show ((n.natAbs : Int)) = n by omega] at this
    exact this

theorem hexOf_dig : ∀ v, v < 16 → HexDig v (hexOf v) := by
  have : ∀ v : Fin 16, (b!"0123456789ABCDEF")[v.val]? = some (hexOf v.val) := by decide
  exact fun v hv => Or.inl (this ⟨v, hv⟩)

theorem octOf_dig : ∀ v, v < 8 → OctDigit v (octOf v) := by
  have : ∀ v : Fin 8, (b!"01234567")[v.val]? = some (octOf v.val) := by decide
  exact fun v hv => this ⟨v, hv⟩

theorem letter_regular : ∀ c : Byte, letter c = true → isRegular c = true ∧ c ≠ 35 ∧ c ≠ 40 ∧ c ≠ 41 ∧ c ≠ 92 ∧ c ≠ 13 :=
  forall_u8 _ (by decide +kernel)

theorem showName_text : ∀ n : Bytes, NameText n (showName n)
  | [] => .nil
  | c :: n => by
    have ih := showName_text n
    unfold showName
    rw [List.flatMap_cons]
    by_cases h : letter c = true
    · rw [if_pos h]
      exact .plain c _ _ ((regular_iff c).mpr (letter_regular c h).1) (letter_regular c h).2.1 ih
    · rw [if_neg h]
      have := c.toNat_lt
      exact .esc c _ _ _ _ (hexOf_dig _ (by omega)) (hexOf_dig _ (by omega)) ih

theorem showStr_text : ∀ v : Bytes, StrText v (showStr v)
  | [] => .nil
  | c :: v => by
    have ih := showStr_text v
    unfold showStr
    rw [List.flatMap_cons]
    by_cases h : (letter c || c == 32) = true
    · rw [if_pos h]
      have : c ≠ 40 ∧ c ≠ 41 ∧ c ≠ 92 ∧ c ≠ 13 := by
        rw [Bool.or_eq_true] at h
        rcases h with h | h
        · exact (letter_regular c h).2.2
        · simp at h; subst h; decide
      exact .plain c _ _ this.1 this.2.1 this.2.2.1 this.2.2.2 ih
    · rw [if_neg h]
      have := c.toNat_lt
      exact .oct3 c _ _ _ _ _ (octOf_dig _ (by omega)) (octOf_dig _ (by omega)) (octOf_dig _ (by omega)) ih

theorem hex_text : ∀ d : Bytes, (∀ c ∈ d, c ∈ (b!"0123456789ABCDEF")) → HexText d d
  | [], _ => .nil
  | c :: d, h => by
    obtain ⟨i, hi, e⟩ := List.mem_iff_getElem.mp (h c (by simp))
    have e' : (b!"0123456789ABCDEF")[i]? = some c := by rw [List.getElem?_eq_getElem hi, e]
    exact .digit i c c _ _ e' (Or.inl e') (hex_text d fun c hc => h c (by simp [hc]))

theorem decVal_zeros (k : Nat) (ds : Bytes) : decVal (List.replicate k 48 ++ ds) = decVal ds := by
  induction k with
  | zero => rfl
  | succ k ih => rw [List.replicate_succ, List.cons_append, decVal, ih]; simp

theorem showPoint_text (k n : Nat) (hk : 0 < k) : ∃ ip fp, showPoint k n = ip ++ 46 :: fp ∧ (∀ c ∈ ip, Digit c) ∧ Digits fp ∧ fp.length = k ∧ decVal (ip ++ fp) = n := by
  generalize hd : List.replicate (k - (showNat n).length) 48 ++ showNat n = ds
  have hlen : k ≤ ds.length := by rw [← hd]; simp; omega
  have hdig : ∀ c ∈ ds, Digit c := by
    intro c hc
    rw [← hd, List.mem_append] at hc
    rcases hc with hc | hc
    · rw [List.mem_replicate] at hc; rw [hc.2, digit_iff]; rfl
    · exact (showNat_digits n).2 c hc
  refine ⟨ds.take (ds.length - k), ds.drop (ds.length - k), ?_, ?_, ⟨?_, ?_⟩, ?_, ?_⟩
  · unfold showPoint; rw [hd]
  · exact fun c hc => hdig c (List.mem_of_mem_take hc)
  · intro h
    have : (ds.drop (ds.length - k)).length = 0 := by rw [h]; rfl
    rw [List.length_drop] at this
    omega
  · exact fun c hc => hdig c (List.mem_of_mem_drop hc)
  · rw [List.length_drop]; omega
  · rw [List.take_append_drop, ← hd, decVal_zeros, showNat_val]

theorem real_text (c e : Int) (he : e < 0) : RealText c e (if c < 0 then 45 :: showPoint e.natAbs c.natAbs else showPoint e.natAbs c.natAbs) := by
  obtain ⟨ip, fp, h1, h2, h3, h4, h5⟩ := showPoint_text e.natAbs c.natAbs (by omega)
  rw [h1]
  split
  · have := RealText.frac true [45] ip fp (Or.inr ⟨rfl, rfl⟩) h2 h3
    rw [h5, h4] at this
    simp only [if_true] at this
    rw [show (-1 * (c.natAbs : Int)) = c by omega, show (-(e.natAbs : Int)) = e by omega] at this
    exact this
  · have := RealText.frac false [] ip fp (Or.inl ⟨rfl, Or.inl rfl⟩) h2 h3
    rw [h5, h4] at this
    simp only [Bool.false_eq_true, if_false] at this
    rw [show (1 * (c.natAbs : Int)) = c by omega, show (-(e.natAbs : Int)) = e by omega] at this
    exact this

theorem eraseDups_nodup : ∀ l : List Bytes, l.Nodup → l.eraseDups = l
  | [], _ => rfl
  | a :: l, h => by
    rw [List.nodup_cons] at h
    rw [List.eraseDups_cons]
    have : l.filter (fun b => !b == a) = l := by
      rw [List.filter_eq_self]
      intro b hb
      simp
      intro e
      subst e
      exact h.1 hb
    rw [this, eraseDups_nodup l h.2]

theorem dictGet_mem : ∀ (es : List (Bytes × Obj)), (es.map (·.1)).Nodup → ∀ k v, (k, v) ∈ es → dictGet es k = some v
  | [], _, _, _, h => by cases h
  | (k', v') :: es, hn, k, v, h => by
    rw [List.map_cons, List.nodup_cons] at hn
    rw [dictGet]
    rcases List.mem_cons.mp h with e | h
    · cases e; rw [if_pos rfl]
    · rw [if_neg, dictGet_mem es hn.2 k v h]
      intro e
      subst e
      exact hn.1 (List.mem_map.mpr ⟨_, h, rfl⟩)

theorem lastVal_mem {es : List (Bytes × Obj)} (hn : (es.map (·.1)).Nodup) {k : Bytes} {v : Obj} (h : (k, v) ∈ es) : lastVal es k = some v := by
  unfold lastVal
  cases hf : es.reverse.find? (fun e => e.1 == k) with
  | none =>
    have := List.find?_eq_none.mp hf (k, v) (List.mem_reverse.mpr h)
    simp at this
  | some e =>
    have h1 := List.mem_reverse.mp (List.mem_of_find?_eq_some hf)
    have h2 := List.find?_some hf
    simp at h2
    obtain ⟨k', v'⟩ := e
    cases h2
    have := dictGet_mem es hn _ _ h1
    rw [dictGet_mem es hn _ _ h] at this
    cases this
    rfl

theorem dictOf_self {es : List (Bytes × Obj)} (hn : (es.map (·.1)).Nodup) : dictOf es = es := by
  unfold dictOf
  rw [eraseDups_nodup _ hn, List.filterMap_map]
  have : ∀ l : List (Bytes × Obj), (∀ e ∈ l, e ∈ es) → l.filterMap ((fun k => (lastVal es k).map fun v => (k, v)) ∘ fun x => x.1) = l := by
    intro l
    induction l with
    | nil => intro _; rfl
    | cons e l ih =>
      intro h
      rw [List.filterMap_cons]
      simp only [Function.comp]
      rw [lastVal_mem hn (show (e.1, e.2) ∈ es from h e (by simp))]
      simp only [Option.map_some]
      rw [ih fun e he => h e (by simp [he])]
  exact this es fun e h => h

theorem stop_lit {c : Byte} {t : Bytes} (h : isRegular c = false) : Stop (c :: t) := by
  intro c' t' e hc
  cases e
  rw [regular_iff, h] at hc
  cases hc

theorem stop_items (os : List Obj) : Stop (showItems os) := by
  cases os with
  | nil => intro c t e; rw [showItems] at e; cases e
  | cons o os => rw [showItems]; exact stop_lit rfl

theorem stop_ents (es : List (Bytes × Obj)) : Stop (showEnts es) := by
  cases es with
  | nil => intro c t e; rw [showEnts] at e; cases e
  | cons e es => obtain ⟨k, v⟩ := e; rw [showEnts]; exact stop_lit rfl

mutual
theorem den_show : ∀ o : Obj, Writable o → Den true (.obj o) (showObj o)
  | .null, _ => by rw [showObj]; exact .null
  | .bool true, _ => by rw [showObj]; exact .true
  | .bool false, _ => by rw [showObj]; exact .false
  | .int n, _ => by rw [showObj]; exact .int _ _ (showInt_text n)
  | .real c e, h => by rw [showObj]; rw [Writable] at h; exact .real _ _ _ (real_text c e h.1) h.2
  | .name n, _ => by rw [showObj]; exact .name _ _ (showName_text n)
  | .str v, _ => by rw [showObj]; exact .str _ _ (showStr_text v)
  | .hex d, h => by
    rw [showObj]
    rw [Writable] at h
    have := Den.hex (refs := true) d d (hex_text d h.2)
    unfold padHex at this
    rw [if_pos h.1] at this
    exact this
  | .ref n g, _ => by
    rw [showObj]
    have := Den.ref (refs := true) (showNat n) (showNat g) [32] [32] rfl (showNat_digits n) (showNat_digits g) sepSp (by simp) sepSp (by simp)
    rw [showNat_val, showNat_val] at this
    exact this
  | .arr os, h => by rw [showObj]; rw [Writable] at h; exact .arr _ _ (den_items os h)
  | .dict es, h => by
    rw [showObj]
    rw [Writable] at h
    have := Den.dict (refs := true) es _ (den_ents es h.2)
    rw [dictOf_self h.1] at this
    exact this
  | .stream _ _, h => by unfold Writable at h; exact h.elim
  | .token _, h => by unfold Writable at h; exact h.elim
  | .image _ _, h => by unfold Writable at h; exact h.elim
theorem den_items : ∀ os : List Obj, WritableItems os → Den true (.items os) (showItems os)
  | [], _ => by rw [showItems]; exact .itemsNil [] .nil
  | o :: os, h => by
    rw [showItems]
    rw [WritableItems] at h
    exact .itemsCons [32] o _ os _ sepSp (den_show o h.1) (fun _ => stop_items os) (den_items os h.2)
theorem den_ents : ∀ es : List (Bytes × Obj), WritableEnts es → Den true (.ents es) (showEnts es)
  | [], _ => by rw [showEnts]; exact .entsNil [] .nil
  | (k, v) :: es, h => by
    rw [showEnts]
    rw [WritableEnts] at h
    exact .entsCons [] k _ [32] v _ es _ .nil (showName_text k) sepSp (stop_lit rfl) (den_show v h.1) (fun _ => stop_ents es) (den_ents es h.2)
end

theorem value_text : ∀ o : Obj, WritableValue o → ValText o (showValue o)
  | .stream d data, h => by
    rw [showValue]
    obtain ⟨h1, h2, h3⟩ := h
    have := ValText.stream d (showEnts d) [10] [10] data [10] (den_ents d h2) sep_lf (Or.inl rfl) (by simp [WS]) (lastVal_mem h1 h3)
    rw [dictOf_self h1] at this
    exact this
  | .null, h | .bool _, h | .int _, h | .real _ _, h | .name _, h | .str _, h | .hex _, h | .ref _ _, h | .arr _, h | .dict _, h
  | .token _, h | .image _ _, h => .obj _ _ (den_show _ h)

theorem item_text (i : FileItem) (h : WritableValue i.val) : IndText i.num i.gen i.val (showItem i) := by
  unfold showItem
  have := IndText.mk (showNat i.num) (showNat i.gen) [32] [32] [10] [10] i.val _ (showNat_digits _) (showNat_digits _) sepSp (by simp) sepSp (by simp)
    sep_lf (value_text i.val h) sep_lf (by simp)
  rw [showNat_val, showNat_val] at this
  exact this

end PdfReader
