/-
  A whole CMap file.
-/
import Verif.Lemmas.CMapParse

namespace PdfReader

open Spec

/-! ### Rows -/

theorem rangeLoop_rows (fin : Bytes) (rows : List RangeRow) (hok : ∀ r ∈ rows, r.Ok) :
    ReadsRows rangeLoop (rows.flatMap RangeRow.items) fin (fun ys => ∀ x, CodeOk x → Answers ys x (rows.findSome? (fun r => r.get x))) := by
  induction rows with
  | nil =>
    intro is r fuel h hr hf
    obtain ⟨f, rfl⟩ : ∃ f, fuel = f + 1 := ⟨fuel - 1, by omega⟩
    obtain ⟨u, e, _, _, hu, hl, hh⟩ := ready_word h hr
    refine ⟨[], r, ?_, h, hr, Nat.le_refl _, fun x _ => answers_nil x⟩
    rw [rangeLoop, if_neg hh]
  | cons row rows ih =>
    intro is r fuel h hr hf
    obtain ⟨f, rfl⟩ : ∃ f, fuel = f + 1 := ⟨fuel - 1, by omega⟩
    rw [List.flatMap_cons, List.append_assoc] at h
    unfold RangeRow.items at h
    simp only [List.cons_append, List.nil_append] at h
    obtain ⟨u, h1, i1, n1, l1, hh⟩ := twoHex_text h hr
    obtain ⟨t, v, v', e, hd, hst, h2, i2, _, l2, _⟩ := ready_obj i1 n1
    obtain ⟨w, h3, i3, n3, l3⟩ := items_skip i2
    obtain ⟨ms, h4, h5⟩ := row_ok (hok row List.mem_cons_self)
    obtain ⟨ys, r', g1, g2, g3, g4, g5⟩ := ih (fun x hx => hok x (List.mem_cons_of_mem _ hx)) is w f i3 n3 (by omega)
    refine ⟨ms ++ ys, r', ?_, g2, g3, by omega, ?_⟩
    · rw [rangeLoop, if_pos hh, h1]
      simp only
      rw [h2]
      simp only
      rw [h4]
      simp only
      rw [h3]
      simp only
      rw [g1]
    · intro x hx
      have := answers_append (h5 x hx) (g5 x hx)
      rw [List.findSome?_cons]
      cases hg : row.get x with
      | none => rw [hg, Option.none_or] at this; exact this
      | some t => rw [hg] at this; exact this

theorem charLoop_rows (kind fin : Bytes) (rows : List (Bytes × Bytes)) (hok : ∀ r ∈ rows, CharOk r) :
    ReadsRows (charLoop (decide (kind = b!"bf"))) (rows.flatMap pairItems) fin
      (fun ys => ∀ x, CodeOk x → Answers ys x (rows.findSome? (fun p => charGet kind p x))) := by
  induction rows with
  | nil =>
    intro is r fuel h hr hf
    obtain ⟨f, rfl⟩ : ∃ f, fuel = f + 1 := ⟨fuel - 1, by omega⟩
    obtain ⟨u, e, _, _, hu, hl, hh⟩ := ready_word h hr
    refine ⟨[], r, ?_, h, hr, Nat.le_refl _, fun x _ => answers_nil x⟩
    rw [charLoop, if_neg hh]
  | cons row rows ih =>
    intro is r fuel h hr hf
    obtain ⟨f, rfl⟩ : ∃ f, fuel = f + 1 := ⟨fuel - 1, by omega⟩
    rw [List.flatMap_cons, List.append_assoc] at h
    unfold pairItems at h
    simp only [List.cons_append, List.nil_append] at h
    obtain ⟨u, h1, i1, n1, l1, hh⟩ := twoHex_text h hr
    obtain ⟨m, h4, h5⟩ := charEntry_ok (kind := kind) (hok row List.mem_cons_self)
    obtain ⟨ys, r', g1, g2, g3, g4, g5⟩ := ih (fun x hx => hok x (List.mem_cons_of_mem _ hx)) is u f i1 n1 (by omega)
    refine ⟨m :: ys, r', ?_, g2, g3, by omega, ?_⟩
    · rw [charLoop, if_pos hh, h1]
      simp only
      rw [h4]
      simp only
      rw [g1]
    · intro x hx
      have := answers_append (h5 x hx) (g5 x hx)
      rw [List.findSome?_cons]
      rw [List.singleton_append] at this
      cases hg : charGet kind row x with
      | none => rw [hg, Option.none_or] at this; exact this
      | some t => rw [hg] at this; exact this

theorem codespaceLoop_rows (fin : Bytes) (rows : List (Bytes × Bytes)) (hok : ∀ r ∈ rows, PairOk r) :
    ReadsRows codespaceLoop (rows.flatMap pairItems) fin
      (fun ys => ys = rows.map (fun p => ⟨p.1.length, hexValue p.1, hexValue p.2⟩)) := by
  induction rows with
  | nil =>
    intro is r fuel h hr hf
    obtain ⟨f, rfl⟩ : ∃ f, fuel = f + 1 := ⟨fuel - 1, by omega⟩
    obtain ⟨u, e, _, _, hu, hl, hh⟩ := ready_word h hr
    refine ⟨[], r, ?_, h, hr, Nat.le_refl _, rfl⟩
    rw [codespaceLoop, if_neg hh]
  | cons row rows ih =>
    intro is r fuel h hr hf
    obtain ⟨f, rfl⟩ : ∃ f, fuel = f + 1 := ⟨fuel - 1, by omega⟩
    rw [List.flatMap_cons, List.append_assoc] at h
    unfold pairItems at h
    simp only [List.cons_append, List.nil_append] at h
    obtain ⟨u, h1, i1, n1, l1, hh⟩ := twoHex_text h hr
    obtain ⟨o1, o2, o3, o4, o5⟩ := hok row List.mem_cons_self
    obtain ⟨ys, r', g1, g2, g3, g4, g5⟩ := ih (fun x hx => hok x (List.mem_cons_of_mem _ hx)) is u f i1 n1 (by omega)
    refine ⟨⟨row.1.length, hexValue row.1, hexValue row.2⟩ :: ys, r', ?_, g2, g3, by omega, ?_⟩
    · rw [codespaceLoop, if_pos hh, h1]
      simp only
      rw [mkRange_ok o1 o2 o3 o4 o5]
      simp only
      rw [g1]
    · rw [g5]
      rfl

/-! ### Kinds of sections -/

/-- The words which start a section. -/
def beginWords : List Bytes :=
  [b!"begincodespacerange", b!"beginbfrange", b!"begincidrange", b!"beginnotdefrange", b!"beginbfchar", b!"begincidchar", b!"beginnotdefchar"]

theorem flat_obj {α : Type} (rows : List α) (f : α → List Item) (hf : ∀ a, ∀ i ∈ f a, ∀ w, i ≠ .word w) :
    ∀ i ∈ rows.flatMap f, ∀ w, i ≠ .word w := by
  intro i hi w
  rw [List.mem_flatMap] at hi
  obtain ⟨a, _, ha⟩ := hi
  exact hf a i ha w

theorem rowItems_obj (r : RangeRow) : ∀ i ∈ r.items, ∀ w, i ≠ .word w := by
  intro i hi w e
  subst e
  simp [RangeRow.items] at hi

theorem pairItems_obj (r : Bytes × Bytes) : ∀ i ∈ pairItems r, ∀ w, i ≠ .word w := by
  intro i hi w e
  subst e
  simp [pairItems] at hi

/-- The words of a block which may start a section: the one of its own kind. -/
def blockStart : Block → Option Bytes
  | .item _ => none
  | .ranges k _ => some (b!"begin" ++ (k ++ b!"range"))
  | .chars k _ => some (b!"begin" ++ (k ++ b!"char"))
  | .codespace _ => some b!"begincodespacerange"

/-- The kinds of sections of a block, and what is outside of sections, are proper. -/
def Kinded : Block → Prop
  | .item i => (Block.item i).Ok
  | .ranges k _ => k ∈ kinds
  | .chars k _ => k ∈ kinds
  | .codespace _ => True

theorem kinded_ok {b : Block} (h : b.Ok) : Kinded b := by
  cases b with
  | item i => exact h
  | ranges k rows => exact h.1
  | chars k rows => exact h.1
  | codespace rows => trivial

theorem block_words {b : Block} (hok : Kinded b) {w : Bytes} (hw : w ∈ beginWords) (h : blockStart b ≠ some w) :
    ∀ i ∈ b.items, i ≠ .word w := by
  have key : ∀ (k : Bytes) (x : Bytes) (body : List Item), k ∈ kinds ∨ (k = b!"codespace" ∧ x = b!"range") → x = b!"range" ∨ x = b!"char" →
      (∀ i ∈ body, ∀ w, i ≠ .word w) → (b!"begin" ++ (k ++ x)) ≠ w →
      ∀ i ∈ Item.word (b!"begin" ++ (k ++ x)) :: (body ++ [.word (b!"end" ++ (k ++ x))]), i ≠ .word w := by
    intro k x body hk hx hb hne i hi e
    subst e
    simp only [List.mem_cons, List.mem_append, List.not_mem_nil, or_false] at hi
    rcases hi with hi | hi | hi
    · injection hi with hi; exact hne hi.symm
    · exact hb _ hi w rfl
    · injection hi with hi
      subst hi
      simp only [kinds, List.mem_cons, List.not_mem_nil, or_false] at hk
      rcases hx with rfl | rfl <;> rcases hk with (rfl | rfl | rfl) | ⟨rfl, _⟩ <;> revert hw <;> decide
  cases b with
  | item i =>
    intro j hj e
    simp only [Block.items, List.mem_singleton] at hj
    subst hj
    subst e
    unfold Kinded Block.Ok at hok
    simp only at hok
    obtain ⟨h1, h2⟩ := hok
    have a1 := h2 b!"bf" (by simp [kinds])
    have a2 := h2 b!"cid" (by simp [kinds])
    have a3 := h2 b!"notdef" (by simp [kinds])
    simp only [beginWords, List.mem_cons, List.not_mem_nil, or_false] at hw
    rcases hw with h | h | h | h | h | h | h
    · exact h1 h
    · exact a1.1 h
    · exact a2.1 h
    · exact a3.1 h
    · exact a1.2 h
    · exact a2.2 h
    · exact a3.2 h
  | ranges k rows =>
    exact key k b!"range" _ (Or.inl hok) (Or.inl rfl) (flat_obj rows _ rowItems_obj) (fun e => h (by rw [← e]; rfl))
  | chars k rows =>
    exact key k b!"char" _ (Or.inl hok) (Or.inr rfl) (flat_obj rows _ pairItems_obj) (fun e => h (by rw [← e]; rfl))
  | codespace rows =>
    exact key b!"codespace" b!"range" _ (Or.inr ⟨rfl, rfl⟩) (Or.inl rfl) (flat_obj rows _ pairItems_obj) (fun e => h (by rw [← e]; rfl))

theorem kind_word (k : Bytes) (hk : k ∈ kinds) : b!"begin" ++ (k ++ b!"range") ∈ beginWords ∧ b!"begin" ++ (k ++ b!"char") ∈ beginWords := by
  simp only [kinds, List.mem_cons, List.not_mem_nil, or_false] at hk
  rcases hk with rfl | rfl | rfl <;> decide

theorem append_range_inj {k k' : Bytes} {x : Bytes} (h : b!"begin" ++ (k ++ x) = b!"begin" ++ (k' ++ x)) : k = k' := by
  exact List.append_cancel_right (List.append_cancel_left h)

theorem range_ne_char {k k' : Bytes} : b!"begin" ++ (k ++ b!"range") ≠ b!"begin" ++ (k' ++ b!"char") := by
  intro h
  have := congrArg List.getLast? (List.append_cancel_left h)
  simp at this

/-- All range sections of a kind. -/
theorem ranges_blocks (kind : Bytes) (hk : kind ∈ kinds) (bs : List Block) (hok : ∀ b ∈ bs, b.Ok) (u : Bytes)
    (h : ItemsText (bs.flatMap Block.items) u) :
    ∃ ms, allSections rangeLoop (kind ++ b!"range") u = .ok ms ∧ ∀ x, CodeOk x → Answers ms x ((rangeRows kind bs).findSome? (fun r => r.get x)) := by
  have := sections_blocks rangeLoop (kind ++ b!"range") (fun b => blockStart b = some (b!"begin" ++ (kind ++ b!"range")))
    (fun bs ms => ∀ x, CodeOk x → Answers ms x ((rangeRows kind bs).findSome? (fun r => r.get x)))
    (fun x _ => answers_nil x) ?_ ?_ ?_ bs [] u (u.length + 1) hok (by simp) h (by omega)
  · exact this
  · intro b bs xs hb hm hx x hxc
    have e : rangeRows kind (b :: bs) = rangeRows kind bs := by
      unfold rangeRows
      rw [List.flatMap_cons]
      cases b with
      | ranges k rows =>
        have : ¬ k = kind := by rintro rfl; exact hm rfl
        simp only [if_neg this, List.nil_append]
      | _ => rfl
    rw [e]
    exact hx x hxc
  · intro b hb hm
    exact block_words (kinded_ok hb) (kind_word kind hk).1 hm
  · intro b hb hm
    cases b with
    | item i => cases hm
    | chars k rows =>
      exfalso
      injection hm with hm
      exact range_ne_char hm.symm
    | codespace rows =>
      exfalso
      injection hm with hm
      simp only [kinds, List.mem_cons, List.not_mem_nil, or_false] at hk
      rcases hk with rfl | rfl | rfl <;> revert hm <;> decide
    | ranges k rows =>
      injection hm with hm
      have hk' : k = kind := append_range_inj hm
      subst hk'
      refine ⟨_, rfl, ?_⟩
      intro is r fuel h1 h2 h3
      obtain ⟨ys, r', g1, g2, g3, g4, g5⟩ := rangeLoop_rows (b!"end" ++ (k ++ b!"range")) rows hb.2 is r fuel h1 h2 h3
      refine ⟨ys, r', g1, g2, g3, g4, ?_⟩
      intro bs xs hx x hxc
      have e : rangeRows k (.ranges k rows :: bs) = rows ++ rangeRows k bs := by
        unfold rangeRows
        rw [List.flatMap_cons]
        simp
      rw [e, List.findSome?_append]
      exact answers_append (g5 x hxc) (hx x hxc)

/-- All char sections of a kind. -/
theorem chars_blocks (kind : Bytes) (hk : kind ∈ kinds) (bs : List Block) (hok : ∀ b ∈ bs, b.Ok) (u : Bytes)
    (h : ItemsText (bs.flatMap Block.items) u) :
    ∃ ms, allSections (charLoop (decide (kind = b!"bf"))) (kind ++ b!"char") u = .ok ms ∧
      ∀ x, CodeOk x → Answers ms x ((charRows kind bs).findSome? (fun p => charGet kind p x)) := by
  have := sections_blocks (charLoop (decide (kind = b!"bf"))) (kind ++ b!"char") (fun b => blockStart b = some (b!"begin" ++ (kind ++ b!"char")))
    (fun bs ms => ∀ x, CodeOk x → Answers ms x ((charRows kind bs).findSome? (fun p => charGet kind p x)))
    (fun x _ => answers_nil x) ?_ ?_ ?_ bs [] u (u.length + 1) hok (by simp) h (by omega)
  · exact this
  · intro b bs xs hb hm hx x hxc
    have e : charRows kind (b :: bs) = charRows kind bs := by
      unfold charRows
      rw [List.flatMap_cons]
      cases b with
      | chars k rows =>
        have : ¬ k = kind := by rintro rfl; exact hm rfl
        simp only [if_neg this, List.nil_append]
      | _ => rfl
    rw [e]
    exact hx x hxc
  · intro b hb hm
    exact block_words (kinded_ok hb) (kind_word kind hk).2 hm
  · intro b hb hm
    cases b with
    | item i => cases hm
    | ranges k rows =>
      exfalso
      injection hm with hm
      exact range_ne_char hm
    | codespace rows =>
      exfalso
      injection hm with hm
      simp only [kinds, List.mem_cons, List.not_mem_nil, or_false] at hk
      rcases hk with rfl | rfl | rfl <;> revert hm <;> decide
    | chars k rows =>
      injection hm with hm
      have hk' : k = kind := append_range_inj hm
      subst hk'
      refine ⟨_, rfl, ?_⟩
      intro is r fuel h1 h2 h3
      obtain ⟨ys, r', g1, g2, g3, g4, g5⟩ := charLoop_rows k (b!"end" ++ (k ++ b!"char")) rows hb.2 is r fuel h1 h2 h3
      refine ⟨ys, r', g1, g2, g3, g4, ?_⟩
      intro bs xs hx x hxc
      have e : charRows k (.chars k rows :: bs) = rows ++ charRows k bs := by
        unfold charRows
        rw [List.flatMap_cons]
        simp
      rw [e, List.findSome?_append]
      exact answers_append (g5 x hxc) (hx x hxc)

theorem codespace_blocks (bs : List Block) (hok : ∀ b ∈ bs, b.Ok) (u : Bytes) (h : ItemsText (bs.flatMap Block.items) u) :
    allSections codespaceLoop b!"codespacerange" u = .ok ((codespaceRows bs).map (fun p => ⟨p.1.length, hexValue p.1, hexValue p.2⟩)) := by
  have := sections_blocks codespaceLoop b!"codespacerange" (fun b => blockStart b = some b!"begincodespacerange")
    (fun bs ms => ms = (codespaceRows bs).map (fun p => ⟨p.1.length, hexValue p.1, hexValue p.2⟩))
    rfl ?_ ?_ ?_ bs [] u (u.length + 1) hok (by simp) h (by omega)
  · obtain ⟨xs, h1, h2⟩ := this
    unfold allSections
    rw [h1, h2]
  · intro b bs xs hb hm hx
    rw [hx]
    congr 1
    unfold codespaceRows
    rw [List.flatMap_cons]
    cases b with
    | codespace rows => exact absurd rfl hm
    | _ => rfl
  · intro b hb hm
    exact block_words (kinded_ok hb) (by decide) hm
  · intro b hb hm
    cases b with
    | item i => cases hm
    | ranges k rows =>
      exfalso
      injection hm with hm
      have hk := hb.1
      simp only [kinds, List.mem_cons, List.not_mem_nil, or_false] at hk
      rcases hk with rfl | rfl | rfl <;> revert hm <;> decide
    | chars k rows =>
      exfalso
      injection hm with hm
      have hk := hb.1
      simp only [kinds, List.mem_cons, List.not_mem_nil, or_false] at hk
      rcases hk with rfl | rfl | rfl <;> revert hm <;> decide
    | codespace rows =>
      refine ⟨_, rfl, ?_⟩
      intro is r fuel h1 h2 h3
      obtain ⟨ys, r', g1, g2, g3, g4, g5⟩ := codespaceLoop_rows b!"endcodespacerange" rows hb is r fuel h1 h2 h3
      refine ⟨ys, r', g1, g2, g3, g4, ?_⟩
      intro bs xs hx
      rw [g5, hx, ← List.map_append]
      rfl

/-! ### The name -/

theorem hexDig_regular {v : Nat} {x : Byte} (h : HexDig v x) : isRegular x = true := by
  have := forall_u8 (fun x => hexVal? x ≠ none → isRegular x = true) (by decide +kernel) x
  apply this
  rw [hexDig_val h]
  simp

theorem nameText_facts {n t : Bytes} (h : NameText n t) :
    (∀ c ∈ t, isRegular c = true) ∧ (t = n ∨ (n.length < t.length ∧ 35 ∈ t)) := by
  induction h with
  | nil => exact ⟨by simp, Or.inl rfl⟩
  | plain c n t hc h35 _ ih =>
    refine ⟨?_, ?_⟩
    · intro b hb
      rcases List.mem_cons.mp hb with rfl | hb
      · exact (regular_iff b).mp hc
      · exact ih.1 b hb
    · rcases ih.2 with rfl | ⟨h1, h2⟩
      · exact Or.inl rfl
      · exact Or.inr ⟨by simp; omega, List.mem_cons_of_mem _ h2⟩
  | esc c x y n t hx hy _ ih =>
    refine ⟨?_, Or.inr ⟨?_, List.mem_cons_self⟩⟩
    · intro b hb
      rcases List.mem_cons.mp hb with rfl | hb
      · decide
      · rcases List.mem_cons.mp hb with rfl | hb
        · exact hexDig_regular hx
        · rcases List.mem_cons.mp hb with rfl | hb
          · exact hexDig_regular hy
          · exact ih.1 b hb
    · simp only [List.length_cons]
      rcases ih.2 with rfl | ⟨h1, _⟩ <;> omega

theorem leftover_name {n s r : Bytes} : leftover (.name n) s r = s ++ r := rfl

theorem ready_name' {n : Bytes} {is : List Item} {r : Bytes} (h : ItemsText (.obj (.name n) :: is) r) (hr : NotStart SepChar r) :
    ∃ t u, r = 47 :: (t ++ u) ∧ NameText n t ∧ Stop u ∧ objectOrToken r = .ok (.name n, u) ∧ nameP true r = .ok (n, u) ∧ ItemsText is u := by
  cases h with
  | obj s _ t _ u hs hd hst hdict hu =>
    obtain rfl := sep_nil_of hs hr
    generalize ho : Obj.name n = o at hd
    cases hd <;> cases ho
    rename_i t ht
    obtain ⟨s', r', rfl, hs', hr', hi, h115⟩ := items_split hu
    have hf : Follow cmapCfg.refs (.name n) s' r' :=
      ⟨hs', hr', hst, (by intro h; cases h), fun hd => by obtain ⟨d, hd⟩ := hd; cases hd⟩
    have := parse_den cmapCfg cmapCfg_noDiv (s0 := []) (s := s') (r := r') (.name n t ht) .nil hf
    refine ⟨t, s' ++ r', rfl, ht, hst rfl, ?_, nameP_text ht (hst rfl), hu⟩
    unfold objectOrToken
    rw [List.nil_append, List.cons_append] at this ⊢
    rw [this]
    rfl

theorem skipUntilName_text (name : Bytes) (is : List Item) : ∀ (u : Bytes) (fuel : Nat), ItemsText is u → u.length < fuel →
    (skipUntilName name fuel u = .ok [] ∧ ∀ i ∈ is, i ≠ .obj (.name name)) ∨
    (∃ pre post t v, is = pre ++ .obj (.name name) :: post ∧ (∀ i ∈ pre, i ≠ .obj (.name name)) ∧ (∃ w, u = w ++ 47 :: (t ++ v)) ∧ NameText name t ∧ Stop v ∧
      ItemsText post v ∧ skipUntilName name fuel u = .ok ((47 :: (t ++ v)).drop ((47 :: (t ++ v)).length - (v.length + name.length + 1)))) := by
  induction is with
  | nil =>
    intro u fuel h hf
    obtain ⟨f, rfl⟩ : ∃ f, fuel = f + 1 := ⟨fuel - 1, by omega⟩
    left
    refine ⟨?_, by simp⟩
    cases h with
    | nil s hs =>
      have := skipSC_sep (r := []) hs notStart_nil
      rw [List.append_nil] at this
      rw [skipUntilName, this]
  | cons i is ih =>
    intro u fuel h hf
    obtain ⟨f, rfl⟩ : ∃ f, fuel = f + 1 := ⟨fuel - 1, by omega⟩
    obtain ⟨s, r, rfl, hs, hr, hi, _⟩ := items_split h
    have hskip := skipSC_sep hs hr
    by_cases hn : i = .obj (.name name)
    · subst hn
      right
      obtain ⟨t, v, rfl, ht, hv, ho, _, hp⟩ := ready_name' hi hr
      refine ⟨[], is, t, v, rfl, by simp, ⟨s, rfl⟩, ht, hv, hp, ?_⟩
      rw [skipUntilName, hskip]
      simp only
      rw [ho]
      simp only
      rw [if_pos trivial]
    · obtain ⟨v, ho, hv, hl, hne⟩ := ready_item hi hr
      have hlen : v.length < f := by
        rw [List.length_append] at hf
        omega
      have hstep : skipUntilName name (f + 1) (s ++ r) = skipUntilName name f v := by
        rw [skipUntilName, hskip]
        cases r with
        | nil => exact absurd rfl hne
        | cons c r =>
          simp only
          rw [ho]
          simp only
          rw [if_neg]
          intro e
          cases i with
          | obj o => simp only at e; subst e; exact hn rfl
          | word w => cases e
      have hsuf : ∃ w, s ++ r = w ++ v := by
        cases i with
        | obj o =>
          obtain ⟨t, u, u', e, hd, hst, hp, hu, _, hl', _⟩ := ready_obj hi hr
          have e1 : objectOrToken r = .ok (o, u) := by unfold objectOrToken; rw [hp]
          rw [e1] at ho
          injection ho with ho
          injection ho with _ ho
          subst ho
          unfold parseObject at hp
          have hg := (parser_good (fuelFor r)).1 cmapCfg r
          rw [hp] at hg
          obtain ⟨w, hw⟩ := hg.ok.1
          exact ⟨s ++ w, by rw [← hw, List.append_assoc]⟩
        | word w =>
          obtain ⟨u, e, h1, h2, _⟩ := ready_word hi hr
          rw [h2] at ho
          injection ho with ho
          injection ho with _ ho
          subst ho
          exact ⟨s ++ w, by rw [e, List.append_assoc]⟩
      rw [hstep]
      rcases ih v f hv hlen with ⟨h1, h2⟩ | ⟨pre, post, t, x, h1, h2, h3, h4⟩
      · left
        refine ⟨h1, ?_⟩
        intro j hj
        rcases List.mem_cons.mp hj with rfl | hj
        · exact hn
        · exact h2 j hj
      · right
        refine ⟨i :: pre, post, t, x, by rw [h1]; rfl, ?_, ?_, h4⟩
        · intro j hj
          rcases List.mem_cons.mp hj with rfl | hj
          · exact hn
          · exact h2 j hj
        · obtain ⟨w, hw⟩ := hsuf
          obtain ⟨w', hw'⟩ := h3
          exact ⟨w ++ w', by rw [hw, hw', List.append_assoc]⟩

theorem nameOf_split (pre post : List Item) (h : ∀ i ∈ pre, i ≠ .obj (.name b!"CMapName")) :
    nameOf (pre ++ .obj (.name b!"CMapName") :: post) = leadingName post := by
  induction pre with
  | nil =>
    rw [List.nil_append, nameOf]
    simp only
    rw [if_pos trivial]
  | cons i pre ih =>
    have h1 := h i List.mem_cons_self
    have h2 := ih (fun j hj => h j (List.mem_cons_of_mem _ hj))
    rw [List.cons_append]
    cases i with
    | word w => exact h2
    | obj o =>
      cases o with
      | name n =>
        have hne : n ≠ b!"CMapName" := by
          intro e
          subst e
          exact h1 rfl
        unfold nameOf
        simp only [if_neg hne]
        exact h2
      | _ => exact h2

theorem nameOf_none (is : List Item) (h : ∀ i ∈ is, i ≠ .obj (.name b!"CMapName")) : nameOf is = none := by
  induction is with
  | nil => rfl
  | cons i pre ih =>
    have h1 := h i List.mem_cons_self
    have h2 := ih (fun j hj => h j (List.mem_cons_of_mem _ hj))
    cases i with
    | word w => exact h2
    | obj o =>
      cases o with
      | name n =>
        have hne : n ≠ b!"CMapName" := by
          intro e
          subst e
          exact h1 rfl
        unfold nameOf
        simp only [if_neg hne]
        exact h2
      | _ => exact h2

theorem parse_slash {cfg : Cfg} {t r : Bytes} {o : Obj} (h : parseObject cfg (47 :: t) = .ok (o, r)) : ∃ n, o = .name n := by
  unfold parseObject fuelFor at h
  rw [objectP, skipSC_nonsep (objStart_notSep (c := 47) (by decide))] at h
  simp only at h
  unfold objBody at h
  simp only [show ¬ (47 : Byte) = 110 by decide, show ¬ (47 : Byte) = 102 by decide, show ¬ (47 : Byte) = 116 by decide, show ¬ (47 : Byte) = 60 by decide,
    show ¬ (47 : Byte) = 91 by decide, show ¬ (47 : Byte) = 40 by decide, show ¬ (47 : Byte) = 43 by decide, show ¬ (47 : Byte) = 45 by decide, show ¬ (47 : Byte) = 46 by decide,
    show isDigit 47 = false by decide, or_self, and_false, if_false, if_true, Bool.false_eq_true] at h
  unfold nameObj at h
  split at h
  · cases h
  · injection h with h
    injection h with h _
    exact ⟨_, h.symm⟩

/-- `nameP` on what is no name. -/
theorem nameP_fails {inp : Bytes} (h : inp.head? ≠ some 47) : nameP true inp = .error .parser := by
  unfold nameP
  split
  · simp at h
  · rfl

theorem cmapName_text {is : List Item} {u : Bytes} (h : ItemsText is u) :
    (∃ n, cmapName u = .ok n ∧ nameOf is = some n) ∨ (cmapName u = .error .parser ∧ (nameOf is = none ∨ 35 ∈ u)) := by
  rcases skipUntilName_text b!"CMapName" is u (u.length + 1) h (by omega) with ⟨h1, h2⟩ | ⟨pre, post, t, v, h1, h2, ⟨w, h3⟩, h4, h5, h6, h7⟩
  · right
    refine ⟨?_, Or.inl (nameOf_none is h2)⟩
    unfold cmapName
    rw [h1]
    rfl
  · obtain ⟨f1, f2⟩ := nameText_facts h4
    by_cases ht : t = b!"CMapName"
    · subst ht
      have e : expectName b!"CMapName" (47 :: (b!"CMapName" ++ v)) = .ok v := by
        unfold expectName
        rw [nameP_text h4 h5]
        simp only
        rw [if_pos trivial]
      have e7 : skipUntilName b!"CMapName" (u.length + 1) u = .ok (47 :: (b!"CMapName" ++ v)) := by
        rw [h7]
        have : (47 :: (b!"CMapName" ++ v)).length - (v.length + (b!"CMapName").length + 1) = 0 := by simp
        rw [this, List.drop_zero]
      obtain ⟨r, g1, g2, g3, _⟩ := items_skip h6
      rw [h1, nameOf_split pre post h2]
      unfold cmapName
      rw [e7]
      simp only
      rw [e]
      simp only
      rw [g1]
      simp only
      by_cases hn : ∃ m post', post = .obj (.name m) :: post'
      · obtain ⟨m, post', rfl⟩ := hn
        obtain ⟨_, x, _, _, _, _, hx, _⟩ := ready_name' g2 g3
        left
        refine ⟨m, ?_, rfl⟩
        rw [hx]
      · right
        refine ⟨?_, Or.inl ?_⟩
        · rw [nameP_fails]
          cases post with
          | nil =>
            cases g2 with
            | nil s hs =>
              have := sep_nil_of hs (by rw [List.append_nil]; exact g3) (x := [])
              subst this
              simp
          | cons i post =>
            cases i with
            | word w' =>
              obtain ⟨x, e, _⟩ := ready_word g2 g3
              cases g2 with
              | word s w is u hs hw hst hu =>
                obtain ⟨c, t, rfl, hc, _⟩ := word_head hw
                rw [e]
                intro e'
                simp at e'
                subst e'
                revert hc
                decide
            | obj o =>
              obtain ⟨t, x, x', rfl, hd, _, hpo, _⟩ := ready_obj g2 g3
              obtain ⟨c, t', rfl, _⟩ := den_head hd
              intro e'
              simp at e'
              subst e'
              obtain ⟨n, rfl⟩ := parse_slash hpo
              exact hn ⟨n, post, rfl⟩
        · unfold leadingName
          split
          · rename_i m post'
            exact absurd ⟨m, post', rfl⟩ hn
          · rfl
    · right
      obtain ⟨hlt, h35⟩ : 8 < t.length ∧ 35 ∈ t := f2.resolve_left ht
      refine ⟨?_, Or.inr (by rw [h3]; simp [h35])⟩
      unfold cmapName
      rw [h7]
      simp only
      unfold expectName
      rw [nameP_fails]
      obtain ⟨k, hk⟩ : ∃ k, (47 :: (t ++ v)).length - (v.length + (b!"CMapName").length + 1) = k + 1 ∧ k < t.length := ⟨t.length - 9, by simp; omega⟩
      rw [hk.1, List.drop_succ_cons, List.drop_append_of_le_length (by omega)]
      intro e
      have : (t.drop k).head? = some 47 := by
        cases hd : t.drop k with
        | nil => rw [List.drop_eq_nil_iff] at hd; omega
        | cons c d => rw [hd] at e; exact e
      have hm := List.mem_of_mem_drop (List.mem_of_mem_head? (by rw [this]; rfl) : (47 : Byte) ∈ t.drop k)
      have := f1 47 hm
      revert this
      decide

/-! ### The whole file -/

theorem blanks_word {w : Bytes} {is : List Item} {u : Bytes} (h : ItemsText (.word w :: is) u) :
    ∃ r, blanksThen (expectToken w) u = .ok r ∧ ItemsText is r := by
  obtain ⟨r, h1, h2, h3, _⟩ := items_skip h
  obtain ⟨v, g1, g2, _⟩ := expectToken_word h2 h3
  refine ⟨v, ?_, g2⟩
  unfold blanksThen
  rw [h1]
  exact g1

theorem blanks_name {n : Bytes} {is : List Item} {u : Bytes} (h : ItemsText (.obj (.name n) :: is) u) :
    ∃ r, blanksThen (expectName n) u = .ok r ∧ ItemsText is r := by
  obtain ⟨r, h1, h2, h3, _⟩ := items_skip h
  obtain ⟨v, g1, g2, _⟩ := ready_name h2 h3
  refine ⟨v, ?_, g2⟩
  unfold blanksThen
  rw [h1]
  simp only
  unfold expectName
  rw [g1]
  simp only
  rw [if_pos trivial]

theorem blanks_nat {n : Nat} {is : List Item} {u : Bytes} (h : ItemsText (.obj (.int n) :: is) u) :
    ∃ r, blanksThen (fun r => (nonNegInt r).map (·.2)) u = .ok r ∧ ItemsText is r := by
  obtain ⟨r, h1, h2, h3, _⟩ := items_skip h
  obtain ⟨v, g1, g2, _⟩ := ready_nat h2 h3
  refine ⟨v, ?_, g2⟩
  unfold blanksThen
  rw [h1]
  simp only
  rw [g1]
  rfl

theorem skipSC_suffix {u r : Bytes} (h : skipSC false u = .ok r) : r <:+ u := by
  have := skipSC_good u false
  rw [h] at this
  exact this

theorem expectToken_suffix {w u r : Bytes} (h : expectToken w u = .ok r) : r <:+ u := by
  unfold expectToken at h
  have := tokenP_good u
  split at h
  · cases h
  · rename_i h1
    rw [h1] at this
    split at h
    · cases h
      exact this.ok.1
    · cases h

theorem expectName_suffix {w u r : Bytes} (h : expectName w u = .ok r) : r <:+ u := by
  unfold expectName at h
  have := nameP_good true u
  split at h
  · cases h
  · rename_i h1
    rw [h1] at this
    split at h
    · cases h
      exact this.ok.1
    · cases h

theorem blanks_suffix {f : Bytes → Res Bytes} (hf : ∀ u r, f u = .ok r → r <:+ u) {u r : Bytes} (h : blanksThen f u = .ok r) : r <:+ u := by
  unfold blanksThen at h
  split at h
  · cases h
  · rename_i h1
    exact (hf _ _ h).trans (skipSC_suffix h1)

theorem nonNegInt_suffix {u r : Bytes} (h : (nonNegInt u).map (·.2) = .ok r) : r <:+ u := by
  have hg := nonNegInt_good u
  cases hn : nonNegInt u with
  | error e => rw [hn] at h; cases h
  | ok p =>
    rw [hn] at h hg
    cases h
    exact hg.ok.1

theorem cmapHead_text {n : Nat} {is : List Item} {u : Bytes} (h : ItemsText (headItems n ++ is) u) :
    ∃ r, cmapHead u = .ok r ∧ ItemsText is r ∧ r <:+ u := by
  unfold headItems at h
  simp only [List.cons_append, List.nil_append] at h
  obtain ⟨r1, h1, i1⟩ := blanks_name h
  obtain ⟨r2, h2, i2⟩ := blanks_name i1
  obtain ⟨r3, h3, i3⟩ := blanks_word i2
  obtain ⟨r4, h4, i4⟩ := blanks_word i3
  obtain ⟨r5, h5, i5⟩ := blanks_nat i4
  obtain ⟨r6, h6, i6⟩ := blanks_word i5
  obtain ⟨r7, h7, i7⟩ := blanks_word i6
  obtain ⟨r8, h8, i8⟩ := blanks_word i7
  have tok : ∀ {w u r : Bytes}, blanksThen (expectToken w) u = .ok r → r <:+ u := blanks_suffix (fun _ _ => expectToken_suffix)
  have nam : ∀ {w u r : Bytes}, blanksThen (expectName w) u = .ok r → r <:+ u := blanks_suffix (fun _ _ => expectName_suffix)
  refine ⟨r8, ?_, i8, ((tok h8).trans (tok h7)).trans ((tok h6).trans ((blanks_suffix (fun _ _ => nonNegInt_suffix) h5).trans
    ((tok h4).trans ((tok h3).trans ((nam h2).trans (nam h1))))))⟩
  unfold cmapHead
  rw [h1]; simp only
  rw [h2]; simp only
  rw [h3]; simp only
  rw [h4]; simp only
  rw [h5]; simp only
  rw [h6]; simp only
  rw [h7]; simp only
  exact h8

theorem cmapP_text {n : Nat} {bs : List Block} {t : Bytes} (hok : ∀ b ∈ bs, b.Ok) (h : CMapText n bs t) :
    ∃ c, cmapP t = .ok c ∧
      (c.name = nameOf (bs.flatMap Block.items) ∨ (c.name = none ∧ 35 ∈ t)) ∧
      c.codespace = (codespaceRows bs).map (fun p => ⟨p.1.length, hexValue p.1, hexValue p.2⟩) ∧
      (∀ x, CodeOk x → Answers c.bf x (lookup b!"bf" bs x)) ∧
      (∀ x, CodeOk x → Answers c.cid x (lookup b!"cid" bs x)) ∧
      (∀ x, CodeOk x → Answers c.notdef x (lookup b!"notdef" bs x)) := by
  obtain ⟨r, h1, i1, hw⟩ := cmapHead_text h
  obtain ⟨r1, h2, i2, _, _⟩ := items_skip i1
  have hc := codespace_blocks bs hok r1 i2
  obtain ⟨a1, b1, c1⟩ := ranges_blocks b!"cid" (by decide) bs hok r1 i2
  obtain ⟨a2, b2, c2⟩ := chars_blocks b!"cid" (by decide) bs hok r1 i2
  obtain ⟨a3, b3, c3⟩ := ranges_blocks b!"notdef" (by decide) bs hok r1 i2
  obtain ⟨a4, b4, c4⟩ := chars_blocks b!"notdef" (by decide) bs hok r1 i2
  obtain ⟨a5, b5, c5⟩ := ranges_blocks b!"bf" (by decide) bs hok r1 i2
  obtain ⟨a6, b6, c6⟩ := chars_blocks b!"bf" (by decide) bs hok r1 i2
  obtain ⟨nm, hn, hnm⟩ : ∃ nm, cmapNameOpt r1 = .ok nm ∧ (nm = nameOf (bs.flatMap Block.items) ∨ (nm = none ∧ 35 ∈ r1)) := by
    unfold cmapNameOpt
    rcases cmapName_text i2 with ⟨m, hm, e⟩ | ⟨hm, e⟩
    · exact ⟨some m, by rw [hm], Or.inl e.symm⟩
    · refine ⟨none, by rw [hm], ?_⟩
      rcases e with e | e
      · exact Or.inl e.symm
      · exact Or.inr ⟨rfl, e⟩
  refine ⟨⟨nm, _, a1 ++ a2, a3 ++ a4, a5 ++ a6⟩, ?_, ?_, rfl, ?_, ?_, ?_⟩
  · unfold cmapP
    rw [h1]; simp only
    rw [h2]; simp only
    unfold cmapBody
    rw [hn]; simp only
    rw [hc]; simp only
    rw [show b!"cidrange" = b!"cid" ++ b!"range" by rfl, b1]; simp only
    rw [show b!"cidchar" = b!"cid" ++ b!"char" by rfl, show charLoop false = charLoop (decide (b!"cid" = b!"bf")) by rfl, b2]; simp only
    rw [show b!"notdefrange" = b!"notdef" ++ b!"range" by rfl, b3]; simp only
    rw [show b!"notdefchar" = b!"notdef" ++ b!"char" by rfl]
    rw [show charLoop (decide (b!"cid" = b!"bf")) = charLoop (decide (b!"notdef" = b!"bf")) by rfl, b4]; simp only
    rw [show b!"bfrange" = b!"bf" ++ b!"range" by rfl, b5]; simp only
    rw [show b!"bfchar" = b!"bf" ++ b!"char" by rfl, show charLoop true = charLoop (decide (b!"bf" = b!"bf")) by rfl, b6]
  · rcases hnm with h | ⟨h, h'⟩
    · exact Or.inl h
    · refine Or.inr ⟨h, ?_⟩
      obtain ⟨w, hw⟩ := hw
      obtain ⟨w', hw'⟩ : r1 <:+ r := skipSC_suffix h2
      rw [← hw, ← hw']
      simp [h']
  · intro x hx
    exact answers_append (c5 x hx) (c6 x hx)
  · intro x hx
    exact answers_append (c1 x hx) (c2 x hx)
  · intro x hx
    exact answers_append (c3 x hx) (c4 x hx)

end PdfReader
