/-
  Reading CMap files.
-/
import Verif.Lemmas.CMap

namespace PdfReader

open Spec

theorem cmapCfg_noDiv : cmapCfg.NoDiv := by
  intro f n g h
  cases h

theorem sep_nil_of {s x : Bytes} (hs : Sep s) (h : NotStart SepChar (s ++ x)) : s = [] := by
  cases hs with
  | nil => rfl
  | ws c s' hc _ => exact absurd (Or.inl hc) (h c _ rfl)
  | comment b e s' _ _ _ => exact absurd (Or.inr rfl) (h 37 _ rfl)

theorem word_head {w : Bytes} (h : WordText w) : ∃ c t, w = c :: t ∧ isRegular c = true ∧ isDigit c = false ∧ c ≠ 43 ∧ c ≠ 45 ∧ c ≠ 46 := by
  obtain ⟨h1, h2, h3, _⟩ := h
  cases w with
  | nil => exact absurd rfl h1
  | cons c t' =>
    have := notStart_cons h3
    refine ⟨c, t', rfl, (regular_iff c).mp (h2 c (by simp)), ?_, ?_, ?_, ?_⟩
    · cases hd : isDigit c with
      | false => rfl
      | true => exact absurd (Or.inl ((digit_iff c).mpr hd)) this
    · intro e; exact this (Or.inr (Or.inl e))
    · intro e; exact this (Or.inr (Or.inr (Or.inl e)))
    · intro e; exact this (Or.inr (Or.inr (Or.inr e)))

/-- Separators before the elements can be dropped. -/
theorem items_split {is : List Item} {u : Bytes} (h : ItemsText is u) :
    ∃ s r, u = s ++ r ∧ Sep s ∧ NotStart SepChar r ∧ ItemsText is r ∧
      ((∀ w is', is = .word w :: is' → NotStart (· = 115) w) → NotStart (· = 115) r) := by
  cases h with
  | nil _ hs => exact ⟨u, [], by simp, hs, notStart_nil, .nil [] .nil, fun _ => notStart_nil⟩
  | obj s o t is u hs hd hst hdict hu =>
    obtain ⟨c, t', rfl, hc⟩ := den_head hd
    refine ⟨s, _, rfl, hs, ?_, ?_, ?_⟩
    · rw [List.cons_append]; exact objStart_notSep hc
    · exact .obj [] o _ is u .nil hd hst hdict hu
    · intro _
      rw [List.cons_append]
      apply notStart_mk
      intro e
      subst e
      revert hc
      decide
  | word s w is u hs hw hst hu =>
    obtain ⟨c, t', rfl, hc, _⟩ := word_head hw
    refine ⟨s, _, rfl, hs, ?_, ?_, ?_⟩
    · rw [List.cons_append]; exact regular_notSep hc
    · exact .word [] _ is u .nil hw hst hu
    · intro h
      have := h _ _ rfl
      rw [List.cons_append]
      exact notStart_mk (notStart_cons (P := (· = 115)) this)

theorem items_skip {is : List Item} {u : Bytes} (h : ItemsText is u) :
    ∃ r, skipSC false u = .ok r ∧ ItemsText is r ∧ NotStart SepChar r ∧ r.length ≤ u.length := by
  obtain ⟨s, r, rfl, hs, hr, hi, _⟩ := items_split h
  exact ⟨r, skipSC_sep hs hr, hi, hr, by simp⟩

theorem ready_obj {o : Obj} {is : List Item} {r : Bytes} (h : ItemsText (.obj o :: is) r) (hr : NotStart SepChar r) :
    ∃ t u u', r = t ++ u' ∧ Den false (.obj o) t ∧ (needsStop o = true → Stop u') ∧ parseObject cmapCfg r = .ok (o, u) ∧ ItemsText is u ∧
      ItemsText is u' ∧ u.length < r.length ∧ r ≠ [] := by
  cases h with
  | obj s o t is u hs hd hst hdict hu =>
    obtain rfl := sep_nil_of hs hr
    obtain ⟨s', r', rfl, hs', hr', hi, h115⟩ := items_split hu
    have hf : Follow cmapCfg.refs o s' r' :=
      ⟨hs', hr', hst, (by intro h; cases h), fun hd => h115 (hdict hd)⟩
    have := parse_den cmapCfg cmapCfg_noDiv (s0 := []) (s := s') (r := r') hd .nil hf
    obtain ⟨c, t', rfl, _⟩ := den_head hd
    refine ⟨c :: t', leftover o s' r', s' ++ r', rfl, hd, hst, this, ?_, hu, ?_, by simp⟩
    · unfold leftover
      split
      · exact hi
      · exact hu
    · unfold leftover
      split <;> simp <;> omega

theorem ready_hex {d : Bytes} {is : List Item} {r : Bytes} (h : ItemsText (.obj (.hex d) :: is) r) (hr : NotStart SepChar r) :
    ∃ u, hexDigits r = .ok (d, u) ∧ ItemsText is u ∧ u.length < r.length ∧ r.head? = some 60 := by
  obtain ⟨t, u, u', rfl, hd, _, _, _, hu, _⟩ := ready_obj h hr
  generalize ho : Obj.hex d = o at hd
  cases hd <;> cases ho
  rename_i ht _ _ _
  refine ⟨u', ?_, hu, by simp; omega, rfl⟩
  unfold hexDigits
  simp only [List.cons_append, List.append_assoc, List.nil_append]
  rw [if_pos trivial, hexstring_text ht]

theorem ready_name {n : Bytes} {is : List Item} {r : Bytes} (h : ItemsText (.obj (.name n) :: is) r) (hr : NotStart SepChar r) :
    ∃ u, nameP true r = .ok (n, u) ∧ ItemsText is u ∧ u.length < r.length := by
  obtain ⟨t, u, u', rfl, hd, hst, _, _, hu, _⟩ := ready_obj h hr
  generalize ho : Obj.name n = o at hd
  cases hd <;> cases ho
  rename_i t' ht
  refine ⟨u', ?_, hu, by simp; omega⟩
  rw [List.cons_append]
  exact nameP_text ht (hst rfl)

theorem ready_nat {n : Nat} {is : List Item} {r : Bytes} (h : ItemsText (.obj (.int n) :: is) r) (hr : NotStart SepChar r) :
    ∃ u, nonNegInt r = .ok (n, u) ∧ ItemsText is u ∧ u.length < r.length := by
  obtain ⟨t, u, u', rfl, hd, hst, _, _, hu, _⟩ := ready_obj h hr
  obtain ⟨c, t', e, _⟩ := den_head hd
  generalize ho : Obj.int n = o at hd
  cases hd <;> cases ho
  rename_i ht
  refine ⟨u', ?_, hu, by rw [e]; simp; omega⟩
  unfold nonNegInt
  rw [numeric_int ht (stop_digit (hst rfl)) (stop_ne (hst rfl) rfl)]
  simp only
  rw [if_neg (by omega)]
  simp

theorem keyword_fails {kw c t x : Bytes} {v : Obj} (hl : kw.length ≤ (c ++ t).length) (h : ¬ kw <+: c ++ t) (hs : c ++ t ++ x = c ++ (t ++ x)) :
    keyword kw v (c ++ (t ++ x)) = .error .parser := by
  rw [← hs]
  unfold keyword readN
  rw [if_neg (by rw [List.length_append]; omega)]
  simp only
  rw [if_neg]
  intro e
  rw [List.take_append_of_le_length hl] at e
  exact h ⟨_, by rw [← e]; exact List.take_append_drop _ _⟩

theorem ready_word {w : Bytes} {is : List Item} {r : Bytes} (h : ItemsText (.word w :: is) r) (hr : NotStart SepChar r) :
    ∃ u, r = w ++ u ∧ tokenP r = .ok (w, u) ∧ objectOrToken r = .ok (.token w, u) ∧ ItemsText is u ∧ u.length < r.length ∧ r.head? ≠ some 60 := by
  cases h with
  | word s w is u hs hw hst hu =>
    obtain rfl := sep_nil_of hs hr
    obtain ⟨c, t, rfl, hc, hd, h43, h45, h46⟩ := word_head hw
    obtain ⟨_, hreg, _, hkw⟩ := hw
    have htok := tokenP_text (fun b hb => (regular_iff b).mp (hreg b hb)) hd hst
    obtain ⟨_, _, h60, h91, h40, h47⟩ := regular_facts c hc
    have hobj : parseObject cmapCfg (c :: t ++ u) = .error .parser := by
      suffices h1 : objectP cmapCfg 1 (c :: t ++ u) = .error .parser by
        unfold parseObject
        rw [objectP_more (f := 1) (by unfold fuelFor; omega) (by rw [h1]; intro e; cases e)]
        exact h1
      rw [objectP, List.cons_append, skipSC_nonsep (regular_notSep hc)]
      simp only
      unfold objBody
      rw [if_neg (by rintro ⟨h, _⟩; cases h), if_neg h60, if_neg h91, if_neg h40]
      have key : ∀ kw v, kw.length ≤ 5 → kw ∈ ([b!"null", b!"true", b!"false"] : List Bytes) → c ∈ (b!"ntf") → keyword kw v (c :: (t ++ u)) = .error .parser := by
        intro kw v hl hm hc'
        rcases hkw with h | ⟨h5, hp⟩
        · exact absurd hc' (notStart_cons h)
        · exact keyword_fails (c := [c]) (t := t) (by simp only [List.singleton_append]; omega) (hp kw hm) rfl
      by_cases h110 : c = 110
      · rw [if_pos h110]; exact key _ _ (by decide) (by simp) (by rw [h110]; decide)
      · rw [if_neg h110]
        by_cases h102 : c = 102
        · rw [if_pos h102]; exact key _ _ (by decide) (by simp) (by rw [h102]; decide)
        · rw [if_neg h102]
          by_cases h116 : c = 116
          · rw [if_pos h116]; exact key _ _ (by decide) (by simp) (by rw [h116]; decide)
          · rw [if_neg h116, if_neg (by rintro (h | h | h) <;> contradiction), hd]
            simp only [Bool.false_eq_true, if_false, if_neg h47]
            rfl
    refine ⟨u, rfl, htok, ?_, hu, by simp; omega, ?_⟩
    · unfold objectOrToken
      rw [List.nil_append, hobj]
      simp only
      rw [htok]
    · simp only [List.nil_append, List.cons_append, List.head?_cons, ne_eq, Option.some.injEq]
      exact h60

theorem ready_item {i : Item} {is : List Item} {r : Bytes} (h : ItemsText (i :: is) r) (hr : NotStart SepChar r) :
    ∃ u, objectOrToken r = .ok ((match i with | .obj o => o | .word w => .token w), u) ∧ ItemsText is u ∧ u.length < r.length ∧ r ≠ [] := by
  cases i with
  | obj o =>
    obtain ⟨t, u, u', e, hd, hst, hp, hu, _, hl, hne⟩ := ready_obj h hr
    refine ⟨u, ?_, hu, hl, hne⟩
    unfold objectOrToken
    rw [hp]
  | word w =>
    obtain ⟨u, e, _, h2, hu, hl, _⟩ := ready_word h hr
    refine ⟨u, h2, hu, hl, ?_⟩
    intro e'
    rw [e'] at hl
    cases hl

theorem item_ne {i : Item} {name : Bytes} (h : i ≠ .word name) {is : List Item} {u : Bytes} (ht : ItemsText (i :: is) u) :
    (match i with | .obj o => o | .word w => Obj.token w) ≠ .token name := by
  cases i with
  | obj o =>
    cases ht with
    | obj s o t is u hs hd hst hdict hu =>
      intro e
      simp only at e
      subst e
      exact den_not_token hd _ rfl
  | word w =>
    intro e
    simp only at e
    injection e with e
    exact h (by rw [e])

/-- Elements before the wanted word are passed over. -/
theorem skipUntil_found (name : Bytes) (pre : List Item) : ∀ (is : List Item) (u : Bytes) (fuel : Nat), ItemsText (pre ++ .word name :: is) u →
    (∀ i ∈ pre, i ≠ .word name) → u.length < fuel →
    ∃ r, skipUntilToken name fuel u = .ok (some r) ∧ ItemsText (.word name :: is) r ∧ NotStart SepChar r ∧ r.length ≤ u.length := by
  induction pre with
  | nil =>
    intro is u fuel h _ hf
    obtain ⟨f, rfl⟩ : ∃ f, fuel = f + 1 := ⟨fuel - 1, by omega⟩
    obtain ⟨r, hs, hi, hr, hl⟩ := items_skip h
    obtain ⟨v, e, _, h2, hu, hlt, _⟩ := ready_word hi hr
    refine ⟨r, ?_, hi, hr, hl⟩
    rw [skipUntilToken, hs]
    cases r with
    | nil => cases hlt
    | cons c r =>
      simp only
      rw [h2]
      simp only
      rw [if_pos trivial, e]
  | cons i pre ih =>
    intro is u fuel h hn hf
    obtain ⟨f, rfl⟩ : ∃ f, fuel = f + 1 := ⟨fuel - 1, by omega⟩
    obtain ⟨r, hs, hi, hr, hl⟩ := items_skip h
    obtain ⟨v, h2, hu, hlt, hne⟩ := ready_item hi hr
    have hne' := item_ne (hn i List.mem_cons_self) hi
    obtain ⟨r', g1, g2, g3, g4⟩ := ih is v f hu (fun j hj => hn j (List.mem_cons_of_mem _ hj)) (by omega)
    refine ⟨r', ?_, g2, g3, by omega⟩
    rw [skipUntilToken, hs]
    cases r with
    | nil => exact absurd rfl hne
    | cons c r =>
      simp only
      rw [h2]
      simp only
      rw [if_neg hne', g1]

theorem skipUntil_none (name : Bytes) (pre : List Item) : ∀ (u : Bytes) (fuel : Nat), ItemsText pre u →
    (∀ i ∈ pre, i ≠ .word name) → u.length < fuel → skipUntilToken name fuel u = .ok none := by
  induction pre with
  | nil =>
    intro u fuel h _ hf
    obtain ⟨f, rfl⟩ : ∃ f, fuel = f + 1 := ⟨fuel - 1, by omega⟩
    cases h with
    | nil s hs =>
      have := skipSC_sep (r := []) hs notStart_nil
      rw [List.append_nil] at this
      rw [skipUntilToken, this]
  | cons i pre ih =>
    intro u fuel h hn hf
    obtain ⟨f, rfl⟩ : ∃ f, fuel = f + 1 := ⟨fuel - 1, by omega⟩
    obtain ⟨r, hs, hi, hr, hl⟩ := items_skip h
    obtain ⟨v, h2, hu, hlt, hne⟩ := ready_item hi hr
    have hne' := item_ne (hn i List.mem_cons_self) hi
    have := ih v f hu (fun j hj => hn j (List.mem_cons_of_mem _ hj)) (by omega)
    rw [skipUntilToken, hs]
    cases r with
    | nil => exact absurd rfl hne
    | cons c r =>
      simp only
      rw [h2]
      simp only
      rw [if_neg hne', this]

/-! ### Sections -/

theorem expectToken_word {w : Bytes} {is : List Item} {r : Bytes} (h : ItemsText (.word w :: is) r) (hr : NotStart SepChar r) :
    ∃ u, expectToken w r = .ok u ∧ ItemsText is u ∧ u.length < r.length := by
  obtain ⟨u, e, h1, _, hu, hl, _⟩ := ready_word h hr
  refine ⟨u, ?_, hu, hl⟩
  unfold expectToken
  rw [h1]
  simp only
  rw [if_pos trivial]

theorem twoHex_text {a b : Bytes} {is : List Item} {r : Bytes} (h : ItemsText (.obj (.hex a) :: .obj (.hex b) :: is) r) (hr : NotStart SepChar r) :
    ∃ u, twoHex r = .ok ((a, b), u) ∧ ItemsText is u ∧ NotStart SepChar u ∧ u.length < r.length ∧ r.head? = some 60 := by
  obtain ⟨u1, h1, i1, l1, hh⟩ := ready_hex h hr
  obtain ⟨r1, s1, j1, n1, m1⟩ := items_skip i1
  obtain ⟨u2, h2, i2, l2, _⟩ := ready_hex j1 n1
  obtain ⟨r2, s2, j2, n2, m2⟩ := items_skip i2
  refine ⟨r2, ?_, j2, n2, by omega, hh⟩
  unfold twoHex
  rw [h1]
  simp only
  rw [s1]
  simp only
  rw [h2]
  simp only
  rw [s2]

/-- What reading the rows of a section must do. -/
def ReadsRows {α : Type} (loop : Nat → Bytes → PRes (List α)) (body : List Item) (fin : Bytes) (Q : List α → Prop) : Prop :=
  ∀ is r fuel, ItemsText (body ++ .word fin :: is) r → NotStart SepChar r → r.length < fuel →
    ∃ ys r', loop fuel r = .ok (ys, r') ∧ ItemsText (.word fin :: is) r' ∧ NotStart SepChar r' ∧ r'.length ≤ r.length ∧ Q ys

theorem section_text {α : Type} {loop : Nat → Bytes → PRes (List α)} {kind : Bytes} {body : List Item} {Q : List α → Prop}
    (hl : ReadsRows loop body (b!"end" ++ kind) Q) {is : List Item} {r : Bytes}
    (h : ItemsText (.word (b!"begin" ++ kind) :: (body ++ .word (b!"end" ++ kind) :: is)) r) (hr : NotStart SepChar r) :
    ∃ ys u, sectionP loop kind r = .ok (ys, u) ∧ ItemsText is u ∧ u.length < r.length ∧ Q ys := by
  obtain ⟨u1, h1, i1, l1⟩ := expectToken_word h hr
  obtain ⟨r1, s1, j1, n1, m1⟩ := items_skip i1
  obtain ⟨ys, r2, h2, j2, n2, m2, hq⟩ := hl is r1 (r1.length + 1) j1 n1 (by omega)
  obtain ⟨u3, h3, i3, l3⟩ := expectToken_word j2 n2
  refine ⟨ys, u3, ?_, i3, by omega, hq⟩
  unfold sectionP
  rw [h1]
  simp only
  rw [s1]
  simp only
  rw [h2]
  simp only
  rw [h3]

/-- All sections of one kind. `M` are the blocks of this kind. -/
theorem sections_blocks {α : Type} (loop : Nat → Bytes → PRes (List α)) (kind : Bytes) (M : Block → Prop) (R : List Block → List α → Prop)
    (h0 : R [] []) (hskip : ∀ b bs xs, b.Ok → ¬ M b → R bs xs → R (b :: bs) xs)
    (hitems : ∀ b, b.Ok → ¬ M b → ∀ i ∈ b.items, i ≠ .word (b!"begin" ++ kind))
    (hmatch : ∀ b, b.Ok → M b → ∃ body, b.items = .word (b!"begin" ++ kind) :: (body ++ [.word (b!"end" ++ kind)]) ∧
      ReadsRows loop body (b!"end" ++ kind) (fun ys => ∀ bs xs, R bs xs → R (b :: bs) (ys ++ xs))) (bs : List Block) :
    ∀ (pre : List Item) (u : Bytes) (fuel : Nat), (∀ b ∈ bs, b.Ok) → (∀ i ∈ pre, i ≠ .word (b!"begin" ++ kind)) →
      ItemsText (pre ++ bs.flatMap Block.items) u → u.length < fuel → ∃ xs, sections' loop kind fuel u = .ok xs ∧ R bs xs := by
  induction bs with
  | nil =>
    intro pre u fuel _ hp h hf
    obtain ⟨f, rfl⟩ : ∃ f, fuel = f + 1 := ⟨fuel - 1, by omega⟩
    rw [List.flatMap_nil, List.append_nil] at h
    refine ⟨[], ?_, h0⟩
    rw [sections', skipUntil_none _ pre u _ h hp (by omega)]
  | cons b bs ih =>
    intro pre u fuel hok hp h hf
    have hb := hok b List.mem_cons_self
    have hbs : ∀ b ∈ bs, b.Ok := fun c hc => hok c (List.mem_cons_of_mem _ hc)
    by_cases hm : M b
    · obtain ⟨f, rfl⟩ : ∃ f, fuel = f + 1 := ⟨fuel - 1, by omega⟩
      obtain ⟨body, he, hl⟩ := hmatch b hb hm
      rw [List.flatMap_cons, he, List.cons_append, List.append_assoc] at h
      obtain ⟨r, g1, g2, g3, g4⟩ := skipUntil_found _ pre _ u (u.length + 1) h hp (by omega)
      obtain ⟨ys, v, k1, k2, k3, k4⟩ := section_text hl g2 g3
      obtain ⟨xs, x1, x2⟩ := ih [] v f hbs (by simp) k2 (by omega)
      refine ⟨ys ++ xs, ?_, k4 _ _ x2⟩
      rw [sections', g1]
      simp only
      rw [k1]
      simp only
      rw [x1]
    · obtain ⟨xs, x1, x2⟩ := ih (pre ++ b.items) u fuel hbs (by
        intro i hi
        rw [List.mem_append] at hi
        rcases hi with hi | hi
        · exact hp i hi
        · exact hitems b hb hm i hi) (by rw [List.append_assoc]; rw [List.flatMap_cons] at h; exact h) hf
      exact ⟨xs, x1, hskip b bs xs hb hm x2⟩

end PdfReader
