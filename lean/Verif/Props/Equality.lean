/-
  C147: comparison with `==`.
-/
import Verif.Model.Equality
import Verif.Spec.Equality
import Verif.Props.Crash

namespace PdfReader

open Spec

/-! ### Numbers -/

theorem ten_pos (k : Nat) : (10 : Int) ^ k ≠ 0 := Int.ne_of_gt (Int.pow_pos (by decide))

theorem scale_up {c d : Int} {j m : Nat} : c * 10 ^ m = d ↔ c * 10 ^ (j + m) = d * 10 ^ j := by
  rw [Nat.add_comm, Int.pow_add, ← Int.mul_assoc]
  constructor
  · intro h
    rw [h]
  · intro h
    exact Int.eq_of_mul_eq_mul_right (ten_pos j) h

theorem eqNum_iff (c d : Int) (j k : Nat) : eqNum (c, -(j : Int)) (d, -(k : Int)) = true ↔ c * 10 ^ k = d * 10 ^ j := by
  unfold eqNum
  dsimp only
  split
  · rename_i h
    obtain ⟨m, rfl⟩ : ∃ m, k = j + m := ⟨k - j, by omega⟩
    rw [beq_iff_eq, show ((-(j : Int)) - -((j + m : Nat) : Int)).toNat = m by omega]
    exact scale_up
  · rename_i h
    obtain ⟨m, rfl⟩ : ∃ m, j = k + m := ⟨j - k, by omega⟩
    rw [beq_iff_eq, show ((-(k : Int)) - -((k + m : Nat) : Int)).toNat = m by omega]
    constructor
    · intro e
      exact (scale_up.mp e.symm).symm
    · intro e
      exact (scale_up.mpr e.symm).symm

theorem num_of {o : Obj} {c : Int} {k : Nat} (h : Number o c k) : numOf o = some (c, -(k : Int)) := by
  cases h <;> rfl

theorem of_num {o : Obj} {x : Int × Int} (hu : Usual o) (h : numOf o = some x) : ∃ k : Nat, Number o x.1 k ∧ x.2 = -(k : Int) := by
  cases o with
  | bool b => cases b <;> cases h <;> exact ⟨0, by constructor, rfl⟩
  | int n => cases h; exact ⟨0, .int n, rfl⟩
  | real c e =>
    cases h
    unfold Usual at hu
    refine ⟨(-e).toNat, ?_, by dsimp only; omega⟩
    have := Number.real c (-e).toNat
    rwa [show -(((-e).toNat : Nat) : Int) = e by omega] at this
  | _ => cases h

theorem chars_of {o : Obj} {t : Bytes} (h : Chars o t) : charsOf o = some t := by cases h <;> rfl

theorem of_chars {o : Obj} {t : Bytes} (h : charsOf o = some t) : Chars o t := by
  cases o <;> first | cases h; constructor | cases h

/-! ### Objects which are no collections -/

/-- Neither array, dictionary, stream nor reference. -/
def simpleObj : Obj → Bool
  | .arr _ | .dict _ | .stream _ _ | .ref _ _ => false
  | _ => true

theorem eqSimple_true {a b : Obj} : eqSimple a b = .ok true ↔ (∃ x y, numOf a = some x ∧ numOf b = some y ∧ eqNum x y = true) ∨
    (∃ t, charsOf a = some t ∧ charsOf b = some t) ∨ (a = .null ∧ b = .null) ∨ ∃ s, a = .str s ∧ b = .str s := by
  cases a <;> cases b <;> simp only [eqSimple, numOf, charsOf, reduceCtorEq, false_and, and_false, exists_false, or_false, false_or, Option.some.injEq, Except.ok.injEq, exists_eq_left',
    beq_iff_eq, Obj.str.injEq, and_self] <;>
    first | exact eq_comm | exact ⟨fun h => ⟨_, _, rfl, rfl, h⟩, fun ⟨_, _, e1, e2, h⟩ => by rw [e1, e2]; exact h⟩

theorem eqSimple_iff {a b : Obj} (hs : simpleObj a = true) (ha : Usual a) (hb : Usual b) : eqSimple a b = .ok true ↔ Equal a b := by
  rw [eqSimple_true]
  constructor
  · rintro (⟨x, y, h1, h2, h3⟩ | ⟨t, h1, h2⟩ | ⟨rfl, rfl⟩ | ⟨s, rfl, rfl⟩)
    · obtain ⟨j, n1, e1⟩ := of_num ha h1
      obtain ⟨k, n2, e2⟩ := of_num hb h2
      refine .number a b _ _ j k n1 n2 ?_
      rw [← eqNum_iff, ← e1, ← e2]
      exact h3
    · exact .chars a b t (of_chars h1) (of_chars h2)
    · exact .null
    · exact .str s
  · intro h
    cases h with
    | null => exact .inr (.inr (.inl ⟨rfl, rfl⟩))
    | number _ _ c d j k h1 h2 h3 => exact .inl ⟨_, _, num_of h1, num_of h2, (eqNum_iff c d j k).mpr h3⟩
    | chars _ _ t h1 h2 => exact .inr (.inl ⟨t, chars_of h1, chars_of h2⟩)
    | str t => exact .inr (.inr (.inr ⟨t, rfl, rfl⟩))
    | _ => cases hs

/-! ### Keys -/

theorem get_none_iff {es : List (Bytes × Obj)} {k : Bytes} : dictGet es k = none ↔ k ∉ es.map (·.1) := by
  induction es with
  | nil => simp [dictGet]
  | cons e es ih =>
    obtain ⟨k', v⟩ := e
    rw [dictGet]
    split
    · rename_i h
      simp [h]
    · rename_i h
      rw [ih]
      simp
      exact fun _ e => h e.symm

/-- A list without repetitions which is not shorter than another and is contained in it contains it. -/
theorem covers {α : Type} [DecidableEq α] : ∀ (a b : List α), a.Nodup → (∀ x ∈ a, x ∈ b) → b.length ≤ a.length → ∀ x ∈ b, x ∈ a
  | [], b, _, _, hl, x, hx => by
    rw [List.length_nil, Nat.le_zero, List.length_eq_zero_iff] at hl
    subst hl
    exact hx
  | y :: a, b, hn, hs, hl, x, hx => by
    by_cases e : x = y
    · subst e
      exact List.mem_cons_self ..
    · have hy := hs y (List.mem_cons_self ..)
      have hlen : (b.erase y).length ≤ a.length := by
        rw [List.length_erase_of_mem hy]
        simp at hl
        omega
      rw [List.nodup_cons] at hn
      refine List.mem_cons_of_mem _ (covers a (b.erase y) hn.2 (fun z hz => ?_) hlen x ?_)
      · have hzy : z ≠ y := fun e => hn.1 (e ▸ hz)
        exact (List.mem_erase_of_ne hzy).mpr (hs z (List.mem_cons_of_mem _ hz))
      · exact (List.mem_erase_of_ne e).mpr hx

theorem shorter {α : Type} [DecidableEq α] (a b : List α) (hn : a.Nodup) (hs : ∀ x ∈ a, x ∈ b) : a.length ≤ b.length := by
  induction a generalizing b with
  | nil => simp
  | cons y a ih =>
    rw [List.nodup_cons] at hn
    have hy := hs y (List.mem_cons_self ..)
    have := ih (b.erase y) hn.2 (fun z hz => (List.mem_erase_of_ne (fun (e : z = y) => hn.1 (e ▸ hz))).mpr (hs z (List.mem_cons_of_mem _ hz)))
    rw [List.length_erase_of_mem hy] at this
    have := List.length_pos_of_mem hy
    simp
    omega

theorem get_usual {es : List (Bytes × Obj)} (h : UsualEnts es) {k : Bytes} {v : Obj} (hg : dictGet es k = some v) : Usual v := by
  induction es with
  | nil => cases hg
  | cons e es ih =>
    obtain ⟨k', w⟩ := e
    rw [UsualEnts] at h
    rw [dictGet] at hg
    split at hg
    · cases hg; exact h.1
    · exact ih h.2 hg

/-- What the loop over entries says. -/
def EntsAre (es fs : List (Bytes × Obj)) : Prop := ∀ k v, (k, v) ∈ es → ∃ w, dictGet fs k = some w ∧ Equal v w

theorem get_mem {es : List (Bytes × Obj)} (hn : (es.map (·.1)).Nodup) {k : Bytes} {v : Obj} : dictGet es k = some v ↔ (k, v) ∈ es := by
  induction es with
  | nil => simp [dictGet]
  | cons e es ih =>
    obtain ⟨k', w⟩ := e
    rw [List.map_cons, List.nodup_cons] at hn
    rw [dictGet]
    split
    · rename_i h
      subst h
      simp only [Option.some.injEq, List.mem_cons, Prod.mk.injEq, true_and]
      constructor
      · intro e; exact .inl e.symm
      · rintro (e | e)
        · exact e.symm
        · exact absurd (List.mem_map_of_mem (f := (·.1)) e) hn.1
    · rename_i h
      rw [ih hn.2]
      simp only [List.mem_cons, Prod.mk.injEq]
      constructor
      · exact .inr
      · rintro (⟨e, _⟩ | e)
        · exact absurd e.symm h
        · exact e

theorem equal_dict {es fs : List (Bytes × Obj)} (hn : (es.map (·.1)).Nodup) (hm : (fs.map (·.1)).Nodup) : (es.length = fs.length ∧ EntsAre es fs) ↔ Equal (.dict es) (.dict fs) := by
  constructor
  · rintro ⟨hl, h⟩
    have hsub : ∀ k ∈ es.map (·.1), k ∈ fs.map (·.1) := by
      intro k hk
      obtain ⟨⟨k', v⟩, hm', rfl⟩ := List.mem_map.mp hk
      obtain ⟨w, hw, _⟩ := h k' v hm'
      exact List.mem_map.mpr ⟨_, (get_mem hm).mp hw, rfl⟩
    refine .dict es fs (fun k => (dictGet fs k).getD .null) (fun k => ?_) (fun k v hk => ?_) (fun k v hk => ?_)
    · rw [get_none_iff, get_none_iff]
      exact not_congr ⟨hsub k, covers _ _ hn hsub (by simp [hl]) k⟩
    · obtain ⟨w, hw, _⟩ := h k v ((get_mem hn).mp hk)
      simp only [hw, Option.getD_some]
    · obtain ⟨w, hw, he⟩ := h k v ((get_mem hn).mp hk)
      simp only [hw, Option.getD_some]
      exact he
  · intro h
    cases h with
    | dict _ _ value h1 h2 h3 =>
      refine ⟨Nat.le_antisymm ?_ ?_, fun k v hk => ⟨_, h2 k v ((get_mem hn).mpr hk), h3 k v ((get_mem hn).mpr hk)⟩⟩
      · have := shorter (es.map (·.1)) (fs.map (·.1)) hn (fun k hk => by
          by_cases hf : k ∈ fs.map (·.1)
          · exact hf
          · exact absurd hk (get_none_iff.mp ((h1 k).mpr (get_none_iff.mpr hf))))
        simpa using this
      · have := shorter (fs.map (·.1)) (es.map (·.1)) hm (fun k hk => by
          by_cases hf : k ∈ es.map (·.1)
          · exact hf
          · exact absurd hk (get_none_iff.mp ((h1 k).mp (get_none_iff.mpr hf))))
        simpa using this
    | number _ _ _ _ _ _ h1 => cases h1
    | chars _ _ _ h1 => cases h1

/-! ### C147: what `==` says -/

theorem eqObj_simple {a : Obj} (h : simpleObj a = true) (b : Obj) : eqObj a b = eqSimple a b := by
  cases a with
  | arr => exact Bool.noConfusion h
  | dict => exact Bool.noConfusion h
  | stream => exact Bool.noConfusion h
  | ref => exact Bool.noConfusion h
  | _ => unfold eqObj; rfl

mutual
theorem eqObj_iff : ∀ a b : Obj, Usual a → Usual b → (eqObj a b = .ok true ↔ Equal a b)
  | .arr xs, b, ha, hb => by
    unfold eqObj
    cases b with
    | arr ys =>
      unfold Usual at ha hb
      dsimp only
      split
      · rename_i hl
        rw [eqItems_iff xs ys hl ha hb]
        constructor
        · intro h
          exact .arr xs ys hl h
        · intro h
          cases h with
          | arr _ _ _ h => exact h
          | number _ _ _ _ _ _ h1 => cases h1
          | chars _ _ _ h1 => cases h1
      · rename_i hl
        constructor
        · intro h; cases h
        · intro h
          cases h with
          | arr _ _ h => exact absurd h hl
          | number _ _ _ _ _ _ h1 => cases h1
          | chars _ _ _ h1 => cases h1
    | _ =>
      constructor
      · intro h; cases h
      · intro h
        cases h with
        | number _ _ _ _ _ _ h1 => cases h1
        | chars _ _ _ h1 => cases h1
  | .dict es, b, ha, hb => by
    unfold eqObj
    cases b with
    | dict fs =>
      unfold Usual at ha hb
      rw [← equal_dict ha.1 hb.1]
      dsimp only
      split
      · rename_i hl
        rw [eqEnts_iff es fs ha.2 hb.2]
        simp [hl]
      · rename_i hl
        simp [hl]
    | _ =>
      constructor
      · intro h; cases h
      · intro h
        cases h with
        | number _ _ _ _ _ _ h1 => cases h1
        | chars _ _ _ h1 => cases h1
  | .stream d x, b, ha, hb => by
    unfold eqObj
    cases b with
    | stream e y =>
      unfold Usual at ha hb
      have key : (d.length = e.length ∧ EntsAre d e) ∧ x = y ↔ Equal (.stream d x) (.stream e y) := by
        rw [equal_dict ha.1 hb.1]
        constructor
        · rintro ⟨h, rfl⟩
          exact .stream d e x h
        · intro h
          cases h with
          | stream _ _ _ h => exact ⟨h, rfl⟩
          | number _ _ _ _ _ _ h1 => cases h1
          | chars _ _ _ h1 => cases h1
      rw [← key]
      dsimp only
      split
      · rename_i hl
        rw [← eqEnts_iff d e ha.2.1 hb.2.1]
        cases hr : eqEnts d e with
        | error ex => simp
        | ok r => cases r <;> simp [hl]
      · rename_i hl
        simp [hl]
    | _ =>
      constructor
      · intro h; cases h
      · intro h
        cases h with
        | number _ _ _ _ _ _ h1 => cases h1
        | chars _ _ _ h1 => cases h1
  | .ref n g, b, ha, hb => by
    unfold eqObj
    cases b with
    | ref n' g' =>
      constructor
      · intro h
        simp at h
        obtain ⟨rfl, rfl⟩ := h
        exact .ref n g
      · intro h
        cases h with
        | ref => simp
        | number _ _ _ _ _ _ h1 => cases h1
        | chars _ _ _ h1 => cases h1
    | stream d x =>
      unfold Usual at hb
      dsimp only
      rw [get_none_iff.mpr hb.2.2]
      constructor
      · intro h; cases h
      · intro h
        cases h with
        | number _ _ _ _ _ _ h1 => cases h1
        | chars _ _ _ h1 => cases h1
    | _ =>
      constructor
      · intro h; cases h
      · intro h
        cases h with
        | number _ _ _ _ _ _ h1 => cases h1
        | chars _ _ _ h1 => cases h1
  | .null, b, ha, hb => by rw [eqObj_simple rfl]; exact eqSimple_iff rfl ha hb
  | .bool _, b, ha, hb => by rw [eqObj_simple rfl]; exact eqSimple_iff rfl ha hb
  | .int _, b, ha, hb => by rw [eqObj_simple rfl]; exact eqSimple_iff rfl ha hb
  | .real _ _, b, ha, hb => by rw [eqObj_simple rfl]; exact eqSimple_iff rfl ha hb
  | .name _, b, ha, hb => by rw [eqObj_simple rfl]; exact eqSimple_iff rfl ha hb
  | .str _, b, ha, hb => by rw [eqObj_simple rfl]; exact eqSimple_iff rfl ha hb
  | .hex _, b, ha, hb => by rw [eqObj_simple rfl]; exact eqSimple_iff rfl ha hb
  | .token _, b, ha, hb => by rw [eqObj_simple rfl]; exact eqSimple_iff rfl ha hb
  | .image _ _, b, ha, hb => by rw [eqObj_simple rfl]; exact eqSimple_iff rfl ha hb
theorem eqItems_iff : ∀ xs ys : List Obj, xs.length = ys.length → UsualItems xs → UsualItems ys →
    (eqItems xs ys = .ok true ↔ ∀ (i : Nat) (x y : Obj), xs[i]? = some x → ys[i]? = some y → Equal x y)
  | [], [], _, _, _ => by rw [eqItems] <;> simp
  | [], _ :: _, h, _, _ => by simp at h
  | _ :: _, [], h, _, _ => by simp at h
  | x :: xs, y :: ys, hl, hx, hy => by
    rw [UsualItems] at hx hy
    rw [eqItems]
    have h1 := eqObj_iff x y hx.1 hy.1
    have h2 := eqItems_iff xs ys (by simpa using hl) hx.2 hy.2
    have key : (Equal x y ∧ ∀ (i : Nat) (x y : Obj), xs[i]? = some x → ys[i]? = some y → Equal x y) ↔
        ∀ (i : Nat) (a b : Obj), (x :: xs)[i]? = some a → (y :: ys)[i]? = some b → Equal a b := by
      constructor
      · rintro ⟨h, hs⟩ i a b ha hb
        cases i with
        | zero => simp at ha hb; subst ha hb; exact h
        | succ i => simp at ha hb; exact hs i a b ha hb
      · intro h
        exact ⟨h 0 x y rfl rfl, fun i a b ha hb => h (i + 1) a b (by simpa using ha) (by simpa using hb)⟩
    rw [← key, ← h1, ← h2]
    cases eqObj x y with
    | error e => simp
    | ok r => cases r <;> simp
theorem eqEnts_iff : ∀ es fs : List (Bytes × Obj), UsualEnts es → UsualEnts fs → (eqEnts es fs = .ok true ↔ EntsAre es fs)
  | [], fs, _, _ => by rw [eqEnts]; simp [EntsAre]
  | (k, v) :: es, fs, he, hf => by
    rw [UsualEnts] at he
    rw [eqEnts]
    have key : ((∃ w, dictGet fs k = some w ∧ Equal v w) ∧ EntsAre es fs) ↔ EntsAre ((k, v) :: es) fs := by
      constructor
      · rintro ⟨h, hs⟩ k' v' hm
        rcases List.mem_cons.mp hm with e | hm
        · cases e; exact h
        · exact hs k' v' hm
      · intro h
        exact ⟨h k v (List.mem_cons_self ..), fun k' v' hm => h k' v' (List.mem_cons_of_mem _ hm)⟩
    rw [← key, ← eqEnts_iff es fs he.2 hf]
    cases hg : dictGet fs k with
    | none => simp
    | some w =>
      have h1 := eqObj_iff v w he.1 (get_usual hf hg)
      dsimp only
      cases hr : eqObj v w with
      | error e =>
        rw [hr] at h1
        have : ¬ Equal v w := fun h => by cases h1.mpr h
        simp [this]
      | ok r =>
        rw [hr] at h1
        cases r with
        | false =>
          have : ¬ Equal v w := fun h => by cases h1.mpr h
          simp [this]
        | true => simp [h1.mp rfl]
end

/-- C147, when `==` gives True: for objects as they are parsed, exactly if they are equal in the sense of `Spec.Equal`. Missing: names and hexadecimal strings should differ, and so should Booleans and
numbers; a hexadecimal string should equal the literal string with the same bytes (`C147_kinds_counterexample`). -/
theorem C147_true_partial (a b : Obj) (ha : Usual a) (hb : Usual b) : eqObj a b = .ok true ↔ Equal a b := eqObj_iff a b ha hb

/-! ### Exceptions -/

theorem eqSimple_only (a b : Obj) : (∃ r, eqSimple a b = .ok r) ∨ eqSimple a b = .error .attributeError := by
  cases a <;> cases b <;> first | exact .inr rfl | exact .inl ⟨_, rfl⟩

theorem eqSimple_ok {a b : Obj} (hb : Closed b) : ∃ r, eqSimple a b = .ok r := by
  cases b with
  | stream _ _ => unfold Closed at hb; exact hb.elim
  | ref _ _ => unfold Closed at hb; exact hb.elim
  | _ => cases a <;> exact ⟨_, rfl⟩

mutual
theorem eqObj_only : ∀ a b : Obj, (∃ r, eqObj a b = .ok r) ∨ eqObj a b = .error .attributeError
  | .arr xs, b => by
    unfold eqObj
    cases b with
    | arr ys =>
      dsimp only
      split
      · exact eqItems_only xs ys
      · exact .inl ⟨_, rfl⟩
    | stream _ _ => exact .inr rfl
    | ref _ _ => exact .inr rfl
    | _ => exact .inl ⟨_, rfl⟩
  | .dict es, b => by
    unfold eqObj
    cases b with
    | dict fs =>
      dsimp only
      split
      · exact eqEnts_only es fs
      · exact .inl ⟨_, rfl⟩
    | stream _ _ => exact .inr rfl
    | ref _ _ => exact .inr rfl
    | _ => exact .inl ⟨_, rfl⟩
  | .stream d x, b => by
    unfold eqObj
    cases b with
    | stream e y =>
      dsimp only
      split
      · rcases eqEnts_only d e with ⟨r, h⟩ | h
        · rw [h]
          cases r <;> exact .inl ⟨_, rfl⟩
        · rw [h]
          exact .inr rfl
      · exact .inl ⟨_, rfl⟩
    | _ => exact .inr rfl
  | .ref n g, b => by
    unfold eqObj
    cases b with
    | ref n' g' => exact .inl ⟨_, rfl⟩
    | stream d x =>
      dsimp only
      rcases eqSimple_only (.int n) ((dictGet d b!"num").getD .null) with ⟨r, h⟩ | h
      · rw [h]
        cases r
        · exact .inl ⟨_, rfl⟩
        · exact eqSimple_only _ _
      · rw [h]
        exact .inr rfl
    | _ => exact .inr rfl
  | .null, b => by rw [eqObj_simple rfl]; exact eqSimple_only _ _
  | .bool _, b => by rw [eqObj_simple rfl]; exact eqSimple_only _ _
  | .int _, b => by rw [eqObj_simple rfl]; exact eqSimple_only _ _
  | .real _ _, b => by rw [eqObj_simple rfl]; exact eqSimple_only _ _
  | .name _, b => by rw [eqObj_simple rfl]; exact eqSimple_only _ _
  | .str _, b => by rw [eqObj_simple rfl]; exact eqSimple_only _ _
  | .hex _, b => by rw [eqObj_simple rfl]; exact eqSimple_only _ _
  | .token _, b => by rw [eqObj_simple rfl]; exact eqSimple_only _ _
  | .image _ _, b => by rw [eqObj_simple rfl]; exact eqSimple_only _ _
theorem eqItems_only : ∀ xs ys : List Obj, (∃ r, eqItems xs ys = .ok r) ∨ eqItems xs ys = .error .attributeError
  | [], _ => by unfold eqItems; exact .inl ⟨_, rfl⟩
  | _ :: _, [] => by unfold eqItems; exact .inl ⟨_, rfl⟩
  | x :: xs, y :: ys => by
    rw [eqItems]
    rcases eqObj_only x y with ⟨r, h⟩ | h
    · rw [h]
      cases r
      · exact .inl ⟨_, rfl⟩
      · exact eqItems_only xs ys
    · rw [h]
      exact .inr rfl
theorem eqEnts_only : ∀ es fs : List (Bytes × Obj), (∃ r, eqEnts es fs = .ok r) ∨ eqEnts es fs = .error .attributeError
  | [], _ => by rw [eqEnts]; exact .inl ⟨_, rfl⟩
  | (k, v) :: es, fs => by
    rw [eqEnts]
    cases dictGet fs k with
    | none => exact .inl ⟨_, rfl⟩
    | some w =>
      dsimp only
      rcases eqObj_only v w with ⟨r, h⟩ | h
      · rw [h]
        cases r
        · exact .inl ⟨_, rfl⟩
        · exact eqEnts_only es fs
      · rw [h]
        exact .inr rfl
end

/-- C147: a comparison gives True or False or raises an AttributeError. -/
theorem C147_outcome (a b : Obj) : eqObj a b = .ok true ∨ eqObj a b = .ok false ∨ eqObj a b = .error .attributeError := by
  rcases eqObj_only a b with ⟨r, h⟩ | h
  · cases r
    · exact .inr (.inl h)
    · exact .inl h
  · exact .inr (.inr h)

theorem get_closed {es : List (Bytes × Obj)} (h : ClosedEnts es) {k : Bytes} {v : Obj} (hg : dictGet es k = some v) : Closed v := by
  induction es with
  | nil => cases hg
  | cons e es ih =>
    obtain ⟨k', w⟩ := e
    rw [ClosedEnts] at h
    rw [dictGet] at hg
    split at hg
    · cases hg; exact h.1
    · exact ih h.2 hg

mutual
theorem eqObj_total : ∀ a b : Obj, Closed a → Closed b → ∃ r, eqObj a b = .ok r
  | .arr xs, b, ha, hb => by
    unfold eqObj
    cases b with
    | arr ys =>
      unfold Closed at ha hb
      dsimp only
      split
      · exact eqItems_total xs ys ha hb
      · exact ⟨_, rfl⟩
    | stream _ _ => unfold Closed at hb; exact hb.elim
    | ref _ _ => unfold Closed at hb; exact hb.elim
    | _ => exact ⟨_, rfl⟩
  | .dict es, b, ha, hb => by
    unfold eqObj
    cases b with
    | dict fs =>
      unfold Closed at ha hb
      dsimp only
      split
      · exact eqEnts_total es fs ha hb
      · exact ⟨_, rfl⟩
    | stream _ _ => unfold Closed at hb; exact hb.elim
    | ref _ _ => unfold Closed at hb; exact hb.elim
    | _ => exact ⟨_, rfl⟩
  | .stream _ _, _, ha, _ => by unfold Closed at ha; exact ha.elim
  | .ref _ _, _, ha, _ => by unfold Closed at ha; exact ha.elim
  | .null, b, _, hb => by rw [eqObj_simple rfl]; exact eqSimple_ok hb
  | .bool _, b, _, hb => by rw [eqObj_simple rfl]; exact eqSimple_ok hb
  | .int _, b, _, hb => by rw [eqObj_simple rfl]; exact eqSimple_ok hb
  | .real _ _, b, _, hb => by rw [eqObj_simple rfl]; exact eqSimple_ok hb
  | .name _, b, _, hb => by rw [eqObj_simple rfl]; exact eqSimple_ok hb
  | .str _, b, _, hb => by rw [eqObj_simple rfl]; exact eqSimple_ok hb
  | .hex _, b, _, hb => by rw [eqObj_simple rfl]; exact eqSimple_ok hb
  | .token _, b, _, hb => by rw [eqObj_simple rfl]; exact eqSimple_ok hb
  | .image _ _, b, _, hb => by rw [eqObj_simple rfl]; exact eqSimple_ok hb
theorem eqItems_total : ∀ xs ys : List Obj, ClosedItems xs → ClosedItems ys → ∃ r, eqItems xs ys = .ok r
  | [], _, _, _ => by unfold eqItems; exact ⟨_, rfl⟩
  | _ :: _, [], _, _ => by unfold eqItems; exact ⟨_, rfl⟩
  | x :: xs, y :: ys, hx, hy => by
    rw [ClosedItems] at hx hy
    rw [eqItems]
    obtain ⟨r, h⟩ := eqObj_total x y hx.1 hy.1
    rw [h]
    cases r
    · exact ⟨_, rfl⟩
    · exact eqItems_total xs ys hx.2 hy.2
theorem eqEnts_total : ∀ es fs : List (Bytes × Obj), ClosedEnts es → ClosedEnts fs → ∃ r, eqEnts es fs = .ok r
  | [], _, _, _ => by rw [eqEnts]; exact ⟨_, rfl⟩
  | (k, v) :: es, fs, he, hf => by
    rw [ClosedEnts] at he
    rw [eqEnts]
    cases hg : dictGet fs k with
    | none => exact ⟨_, rfl⟩
    | some w =>
      dsimp only
      obtain ⟨r, h⟩ := eqObj_total v w he.1 (get_closed hf hg)
      rw [h]
      cases r
      · exact ⟨_, rfl⟩
      · exact eqEnts_total es fs he.2 hf
end

/-- C147, the part about exceptions which holds: objects without references and streams are compared without an exception. -/
theorem C147_total_partial (a b : Obj) (ha : Closed a) (hb : Closed b) : ∃ r, eqObj a b = .ok r := eqObj_total a b ha hb

/-! ### An equivalence -/

theorem equal_symm {a b : Obj} (h : Equal a b) : Equal b a := by
  induction h with
  | null => exact .null
  | number a b c d j k h1 h2 h3 => exact .number b a d c k j h2 h1 h3.symm
  | chars a b t h1 h2 => exact .chars b a t h2 h1
  | str t => exact .str t
  | ref n g => exact .ref n g
  | arr xs ys hl _ ih => exact .arr ys xs hl.symm fun i x y hx hy => ih i y x hy hx
  | dict es fs value h1 h2 _ ih =>
    have old : ∀ k w, dictGet fs k = some w → ∃ v, dictGet es k = some v ∧ w = value k := by
      intro k w hw
      cases hv : dictGet es k with
      | none => rw [(h1 k).mp hv] at hw; cases hw
      | some v =>
        have := h2 k v hv
        rw [hw] at this
        exact ⟨v, rfl, Option.some.inj this⟩
    refine .dict fs es (fun k => (dictGet es k).getD .null) (fun k => (h1 k).symm) (fun k w hw => ?_) (fun k w hw => ?_)
    · obtain ⟨v, hv, _⟩ := old k w hw
      simp only [hv, Option.getD_some]
    · obtain ⟨v, hv, rfl⟩ := old k w hw
      simp only [hv, Option.getD_some]
      exact ih k v hv
  | stream d e data _ ih => exact .stream e d data ih

/-- C147: where the result is True, it is True with the operands exchanged. -/
theorem C147_symmetric (a b : Obj) (ha : Usual a) (hb : Usual b) (h : eqObj a b = .ok true) : eqObj b a = .ok true :=
  (eqObj_iff b a hb ha).mpr (equal_symm ((eqObj_iff a b ha hb).mp h))

theorem number_fun {o : Obj} {c d : Int} {j k : Nat} (h1 : Number o c j) (h2 : Number o d k) : c = d ∧ j = k := by
  have := (num_of h1).symm.trans (num_of h2)
  injection this with this
  injection this with e1 e2
  exact ⟨e1, by omega⟩

theorem equal_trans {a b : Obj} (h : Equal a b) : ∀ {c : Obj}, Equal b c → Equal a c := by
  induction h with
  | null => exact fun h => h
  | number a b x y j k h1 h2 h3 =>
    intro c h
    cases h with
    | null => cases h2
    | number _ _ y' z k' l h4 h5 h6 =>
      obtain ⟨rfl, rfl⟩ := number_fun h2 h4
      refine .number a c x z j l h1 h5 ?_
      refine Int.eq_of_mul_eq_mul_right (ten_pos k) ?_
      rw [Int.mul_right_comm, h3, Int.mul_right_comm, h6, Int.mul_right_comm]
    | chars _ _ _ h4 => cases h2 <;> cases h4
    | str => cases h2
    | ref => cases h2
    | arr => cases h2
    | dict => cases h2
    | stream => cases h2
  | chars a b t h1 h2 =>
    intro c h
    cases h with
    | null => cases h2
    | number _ _ _ _ _ _ h4 => cases h2 <;> cases h4
    | chars _ _ _ h4 h5 =>
      have := (chars_of h2).symm.trans (chars_of h4)
      cases this
      exact .chars a c t h1 h5
    | str => cases h2
    | ref => cases h2
    | arr => cases h2
    | dict => cases h2
    | stream => cases h2
  | str t => exact fun h => h
  | ref n g => exact fun h => h
  | arr xs ys hl _ ih =>
    intro c h
    cases h with
    | arr _ zs hl' h' =>
      refine .arr xs zs (hl.trans hl') fun i x z hx hz => ?_
      have hi : i < ys.length := by
        rw [← hl]
        exact (List.getElem?_eq_some_iff.mp hx).1
      exact ih i x ys[i] hx (List.getElem?_eq_getElem hi) (h' i _ z (List.getElem?_eq_getElem hi) hz)
    | number _ _ _ _ _ _ h4 => cases h4
    | chars _ _ _ h4 => cases h4
  | dict es fs value h1 h2 _ ih =>
    intro c h
    cases h with
    | dict _ gs value' h1' h2' h3' =>
      exact .dict es gs value' (fun k => (h1 k).trans (h1' k)) (fun k v hv => h2' k _ (h2 k v hv)) (fun k v hv => ih k v hv (h3' k _ (h2 k v hv)))
    | number _ _ _ _ _ _ h4 => cases h4
    | chars _ _ _ h4 => cases h4
  | stream d e data _ ih =>
    intro c h
    cases h with
    | stream _ f _ h' => exact .stream d f data (ih h')
    | number _ _ _ _ _ _ h4 => cases h4
    | chars _ _ _ h4 => cases h4

/-- C147: what equals the same object is equal. -/
theorem C147_transitive (a b c : Obj) (ha : Usual a) (hb : Usual b) (hc : Usual c) (h1 : eqObj a b = .ok true) (h2 : eqObj b c = .ok true) : eqObj a c = .ok true :=
  (eqObj_iff a c ha hc).mpr (equal_trans ((eqObj_iff a b ha hb).mp h1) ((eqObj_iff b c hb hc).mp h2))

mutual
theorem equal_refl : ∀ a : Obj, Usual a → Equal a a
  | .null, _ => .null
  | .bool b, _ => by cases b <;> exact .number _ _ _ _ 0 0 (by constructor) (by constructor) rfl
  | .int n, _ => .number _ _ _ _ 0 0 (.int n) (.int n) rfl
  | .real c e, h => by
    obtain ⟨k, h1, _⟩ := of_num h rfl
    exact .number _ _ _ _ k k h1 h1 rfl
  | .name t, _ => .chars _ _ t (.name t) (.name t)
  | .hex t, _ => .chars _ _ t (.hex t) (.hex t)
  | .token t, _ => .chars _ _ t (.token t) (.token t)
  | .str t, _ => .str t
  | .ref n g, _ => .ref n g
  | .arr xs, h => by
    unfold Usual at h
    exact .arr xs xs rfl fun i x y hx hy => by
      rw [hx] at hy
      cases hy
      exact items_refl xs h x (List.mem_of_getElem? hx)
  | .dict es, h => by
    unfold Usual at h
    refine .dict es es (fun k => (dictGet es k).getD .null) (fun k => Iff.rfl) (fun k v hv => by simp only [hv, Option.getD_some]) (fun k v hv => ?_)
    simp only [hv, Option.getD_some]
    exact ents_refl es h.2 _ ((get_mem h.1).mp hv)
  | .stream d x, h => by
    unfold Usual at h
    refine .stream d d x (.dict d d (fun k => (dictGet d k).getD .null) (fun k => Iff.rfl) (fun k v hv => by simp only [hv, Option.getD_some]) (fun k v hv => ?_))
    simp only [hv, Option.getD_some]
    exact ents_refl d h.2.1 _ ((get_mem h.1).mp hv)
  | .image _ _, h => by unfold Usual at h; exact h.elim
theorem items_refl : ∀ xs : List Obj, UsualItems xs → ∀ x ∈ xs, Equal x x
  | [], _, _, h => by cases h
  | y :: ys, h, x, hx => by
    rw [UsualItems] at h
    rcases List.mem_cons.mp hx with e | hx
    · rw [e]
      exact equal_refl y h.1
    · exact items_refl ys h.2 x hx
theorem ents_refl : ∀ es : List (Bytes × Obj), UsualEnts es → ∀ e ∈ es, Equal e.2 e.2
  | [], _, _, h => by cases h
  | f :: fs, h, e, he => by
    rw [UsualEnts] at h
    rcases List.mem_cons.mp he with e' | he
    · rw [e']
      exact equal_refl f.2 h.1
    · exact ents_refl fs h.2 e he
end

/-- C147: an object read twice equals itself, references and streams included. -/
theorem C147_reflexive (a : Obj) (ha : Usual a) : eqObj a a = .ok true := (eqObj_iff a a ha ha).mpr (equal_refl a ha)

/-! ### Objects of a document -/

mutual
theorem writable_usual : ∀ o : Obj, Writable o → Usual o
  | .null, _ | .bool _, _ | .int _, _ | .name _, _ | .str _, _ | .ref _ _, _ | .hex _, _ => by unfold Usual; trivial
  | .real c e, h => by unfold Usual; unfold Writable at h; omega
  | .arr xs, h => by unfold Usual; unfold Writable at h; exact writableItems_usual xs h
  | .dict es, h => by unfold Usual; unfold Writable at h; exact ⟨h.1, writableEnts_usual es h.2⟩
  | .stream _ _, h => by unfold Writable at h; exact h.elim
  | .token _, h => by unfold Writable at h; exact h.elim
  | .image _ _, h => by unfold Writable at h; exact h.elim
theorem writableItems_usual : ∀ xs : List Obj, WritableItems xs → UsualItems xs
  | [], _ => by unfold UsualItems; trivial
  | x :: xs, h => by unfold UsualItems; unfold WritableItems at h; exact ⟨writable_usual x h.1, writableItems_usual xs h.2⟩
theorem writableEnts_usual : ∀ es : List (Bytes × Obj), WritableEnts es → UsualEnts es
  | [], _ => by unfold UsualEnts; trivial
  | (_, v) :: es, h => by unfold UsualEnts; unfold WritableEnts at h; exact ⟨writable_usual v h.1, writableEnts_usual es h.2⟩
end

/-- Whatever can be written is as in C147, but for streams with an entry `num`. -/
theorem value_usual {o : Obj} (h : WritableValue o) (hn : ∀ d data, o = .stream d data → b!"num" ∉ d.map (·.1)) : Usual o := by
  cases o with
  | stream d data =>
    unfold WritableValue at h
    unfold Usual
    exact ⟨h.1, writableEnts_usual d h.2.1, hn d data rfl⟩
  | _ => exact writable_usual _ h

/-- C147, for the objects of a document: two objects read from a written document, whatever was read before, compare as True exactly if the objects written are equal; and an object
read again always does. -/
theorem C147_document_partial {filtered : List (Bytes × Obj) → Bytes → Res Bytes} (clamps : Bool) (older : List Draft) (last : Draft) (hok : ∀ d ∈ older ++ [last], d.Ok)
    (hsmall : (writeFile (older ++ [last])).length < 10 ^ 10) (hb : clamps = true ∨ 1024 ≤ (writeFile (older ++ [last])).length) :
    ∃ F, ∀ fuel, F ≤ fuel → ∃ o, openDoc filtered clamps fuel (writeFile (older ++ [last])) = .ok o ∧
      ∀ h1 h2 : List (Nat × Nat), (∀ k ∈ h1, contentOf (older ++ [last]) k.1 k.2 ≠ none) → (∀ k ∈ h2, contentOf (older ++ [last]) k.1 k.2 ≠ none) →
      ∀ n g x m k y, contentOf (older ++ [last]) n g = some x → contentOf (older ++ [last]) m k = some y → Usual x → Usual y →
        ∃ a b, (locate o.env fuel n g (asked o.env fuel h1 o.st)).1 = .ok a ∧ (locate o.env fuel m k (asked o.env fuel h2 o.st)).1 = .ok b ∧
          (eqObj a b = .ok true ↔ Equal x y) ∧ ((n, g) = (m, k) → eqObj a b = .ok true) := by
  obtain ⟨F, hF⟩ := C93_read_back (filtered := filtered) clamps older last hok hsmall hb
  refine ⟨F, fun fuel hf => ?_⟩
  obtain ⟨o, e, _, _, h⟩ := hF fuel hf
  refine ⟨o, e, fun h1 h2 hh1 hh2 n g x m k y hx hy ux uy => ⟨x, y, h h1 hh1 n g x hx, h h2 hh2 m k y hy, eqObj_iff x y ux uy, fun ee => ?_⟩⟩
  injection ee with e1 e2
  subst e1 e2
  rw [hx] at hy
  cases hy
  exact C147_reflexive x ux

/-! ### Examples and counterexamples -/

/-- `<< /A [1 2.50 (x)] /B 7 0 R >>` and the same in another order with `2.5`. -/
def leftDict : Obj := .dict [(b!"A", .arr [.int 1, .real 250 (-2), .str b!"x"]), (b!"B", .ref 7 0)]
def rightDict : Obj := .dict [(b!"B", .ref 7 0), (b!"A", .arr [.real 10 (-1), .real 25 (-1), .str b!"x"])]

/-- The hypotheses of C147 are met. -/
example : Usual leftDict ∧ Usual rightDict ∧ eqObj leftDict rightDict = .ok true := by
  refine ⟨?_, ?_, by decide +kernel⟩ <;> simp [leftDict, rightDict, Usual, UsualEnts, UsualItems]

example : Equal leftDict rightDict :=
  (C147_true_partial _ _ (by simp [leftDict, Usual, UsualEnts, UsualItems]) (by simp [rightDict, Usual, UsualEnts, UsualItems])).mp (by decide +kernel)

example : ∃ r, eqObj (.arr [.int 1, .dict [(b!"K", .null)]]) (.arr [.int 1, .dict [(b!"K", .name b!"N")]]) = .ok r :=
  C147_total_partial _ _ (by simp [Closed, ClosedItems, ClosedEnts]) (by simp [Closed, ClosedItems, ClosedEnts])

/-- C147 is false of kinds: a name equals a hexadecimal string, true equals one, and a string does not equal the same string in hexadecimal digits. -/
theorem C147_kinds_counterexample : eqObj (.name b!"AB") (.hex b!"AB") = .ok true ∧ eqObj (.bool true) (.int 1) = .ok true ∧
    eqObj (.str b!"ab") (.hex b!"6162") = .ok false := by decide +kernel

/-- C147 is false of references and streams: every comparison with an object of another kind raises; and the order of the operands matters. -/
theorem C147_raises_counterexample : (∀ n g b, (∀ n' g', b ≠ .ref n' g') → (∀ d x, b ≠ .stream d x) → eqObj (.ref n g) b = .error .attributeError ∧ (simpleObj b = true → eqObj b (.ref n g) = .error .attributeError)) ∧
    (∀ d x b, (∀ d' x', b ≠ .stream d' x') → eqObj (.stream d x) b = .error .attributeError) ∧
    (∀ n g d x, dictGet d b!"num" = none → eqObj (.ref n g) (.stream d x) = .ok false ∧ eqObj (.stream d x) (.ref n g) = .error .attributeError) := by
  refine ⟨fun n g b h1 h2 => ⟨?_, fun hs => ?_⟩, fun d x b h => ?_, fun n g d x h => ⟨?_, ?_⟩⟩
  · unfold eqObj
    cases b with
    | ref n' g' => exact absurd rfl (h1 n' g')
    | stream d x => exact absurd rfl (h2 d x)
    | _ => rfl
  · rw [eqObj_simple hs]
    rfl
  · unfold eqObj
    cases b with
    | stream d' x' => exact absurd rfl (h d' x')
    | _ => rfl
  · unfold eqObj
    dsimp only
    rw [h]
    rfl
  · unfold eqObj
    rfl

end PdfReader
