/-
  The rows of a CMap, whether they are proper or not.
-/
import Verif.Lemmas.CMapFile

namespace PdfReader

open Spec

/-- The results for all rows, up to the first which fails. -/
def rowsRes {ρ α : Type} (f : ρ → Res (List α)) : List ρ → Res (List α)
  | [] => .ok []
  | r :: rs =>
    match f r with
    | .error e => .error e
    | .ok xs => match rowsRes f rs with | .error e => .error e | .ok ys => .ok (xs ++ ys)

theorem rowsRes_append {ρ α : Type} (f : ρ → Res (List α)) (rs rs' : List ρ) :
    rowsRes f (rs ++ rs') = match rowsRes f rs with | .error e => .error e | .ok xs => match rowsRes f rs' with | .error e => .error e | .ok ys => .ok (xs ++ ys) := by
  induction rs with
  | nil => 
    show rowsRes f rs' = match rowsRes f rs' with | .error e => .error e | .ok ys => .ok ys
    cases rowsRes f rs' <;> rfl
  | cons r rs ih =>
    rw [List.cons_append, rowsRes, rowsRes, ih]
    cases f r with
    | error e => rfl
    | ok xs =>
      dsimp only
      cases rowsRes f rs with
      | error e => rfl
      | ok ys =>
        dsimp only
        cases rowsRes f rs' with
        | error e => rfl
        | ok zs => simp only [List.append_assoc]

/-- All rows are fine, or the result is the failure of a row. -/
theorem rowsRes_error {ρ α : Type} {f : ρ → Res (List α)} {rs : List ρ} {e : Exc} (h : rowsRes f rs = .error e) : ∃ r ∈ rs, f r = .error e := by
  induction rs with
  | nil => cases h
  | cons r rs ih =>
    unfold rowsRes at h
    cases hr : f r with
    | error e' => rw [hr] at h; cases h; exact ⟨r, List.mem_cons_self, hr⟩
    | ok xs =>
      rw [hr] at h
      dsimp only at h
      cases hs : rowsRes f rs with
      | error e' =>
        rw [hs] at h; cases h
        obtain ⟨r', h1, h2⟩ := ih hs
        exact ⟨r', List.mem_cons_of_mem _ h1, h2⟩
      | ok ys => rw [hs] at h; cases h

theorem rowsRes_ok {ρ α : Type} {f : ρ → Res (List α)} {rs : List ρ} {xs : List α} (h : rowsRes f rs = .ok xs) :
    (∀ r ∈ rs, ∃ ys, f r = .ok ys) ∧ ∀ x, x ∈ xs ↔ ∃ r ∈ rs, ∃ ys, f r = .ok ys ∧ x ∈ ys := by
  induction rs generalizing xs with
  | nil => cases h; simp
  | cons r rs ih =>
    unfold rowsRes at h
    cases hr : f r with
    | error e' => rw [hr] at h; cases h
    | ok ys =>
      rw [hr] at h
      dsimp only at h
      cases hs : rowsRes f rs with
      | error e' => rw [hs] at h; cases h
      | ok zs =>
        rw [hs] at h; cases h
        obtain ⟨h1, h2⟩ := ih hs
        refine ⟨fun r' hm => ?_, fun x => ?_⟩
        · rcases List.mem_cons.mp hm with e | hm
          · exact ⟨ys, e ▸ hr⟩
          · exact h1 r' hm
        · rw [List.mem_append, h2]
          constructor
          · rintro (hx | ⟨r', hm, zs', h3, h4⟩)
            · exact ⟨r, List.mem_cons_self, ys, hr, hx⟩
            · exact ⟨r', List.mem_cons_of_mem _ hm, zs', h3, h4⟩
          · rintro ⟨r', hm, zs', h3, h4⟩
            rcases List.mem_cons.mp hm with e | hm
            · subst e; rw [hr] at h3; cases h3; exact Or.inl h4
            · exact Or.inr ⟨r', hm, zs', h3, h4⟩

def rangeRes (r : RangeRow) : Res (List MapEntry) := rowEntries r.lo r.hi r.dst.obj
def charRes (kind : Bytes) (p : Bytes × Bytes) : Res (List MapEntry) := (charEntry (decide (kind = b!"bf")) p.1 p.2).map fun m => [m]
def codeRes (p : Bytes × Bytes) : Res (List CodeRange) := (mkRange p.1 p.2).map fun r => [r]

/-- What a loop over rows does. -/
def LoopIs {ρ α : Type} (loop : Nat → Bytes → PRes (List α)) (items : ρ → List Item) (f : ρ → Res (List α)) (fin : Bytes) : Prop :=
  ∀ (rows : List ρ) (is : List Item) (r : Bytes) (fuel : Nat), ItemsText (rows.flatMap items ++ .word fin :: is) r → NotStart SepChar r → r.length < fuel →
    match rowsRes f rows with
    | .error e => loop fuel r = .error e
    | .ok ys => ∃ r', loop fuel r = .ok (ys, r') ∧ ItemsText (.word fin :: is) r' ∧ NotStart SepChar r' ∧ r'.length ≤ r.length

theorem rangeLoop_is (fin : Bytes) : LoopIs rangeLoop RangeRow.items rangeRes fin := by
  intro rows
  induction rows with
  | nil =>
    intro is r fuel h hr hf
    obtain ⟨f, rfl⟩ : ∃ f, fuel = f + 1 := ⟨fuel - 1, by omega⟩
    obtain ⟨u, e, _, _, hu, hl, hh⟩ := ready_word h hr
    exact ⟨r, by rw [rangeLoop, if_neg hh], h, hr, Nat.le_refl _⟩
  | cons row rows ih =>
    intro is r fuel h hr hf
    obtain ⟨f, rfl⟩ : ∃ f, fuel = f + 1 := ⟨fuel - 1, by omega⟩
    rw [List.flatMap_cons, List.append_assoc] at h
    unfold RangeRow.items at h
    simp only [List.cons_append, List.nil_append] at h
    obtain ⟨u, h1, i1, n1, l1, hh⟩ := twoHex_text h hr
    obtain ⟨t, v, v', e, hd, hst, h2, i2, _, l2, _⟩ := ready_obj i1 n1
    obtain ⟨w, h3, i3, n3, l3⟩ := items_skip i2
    have g := ih is w f i3 n3 (by omega)
    rw [rowsRes]
    rw [rangeLoop, if_pos hh, h1]
    dsimp only
    rw [h2]
    dsimp only
    rw [show rangeRes row = rowEntries row.lo row.hi row.dst.obj from rfl]
    cases rowEntries row.lo row.hi row.dst.obj with
    | error e => rfl
    | ok ms =>
      dsimp only
      rw [h3]
      dsimp only
      cases hs : rowsRes rangeRes rows with
      | error e =>
        rw [hs] at g
        dsimp only at g ⊢
        rw [g]
      | ok ys =>
        rw [hs] at g
        obtain ⟨r', g1, g2, g3, g4⟩ := g
        exact ⟨r', by rw [g1], g2, g3, by omega⟩

theorem charLoop_is (kind fin : Bytes) : LoopIs (charLoop (decide (kind = b!"bf"))) pairItems (charRes kind) fin := by
  intro rows
  induction rows with
  | nil =>
    intro is r fuel h hr hf
    obtain ⟨f, rfl⟩ : ∃ f, fuel = f + 1 := ⟨fuel - 1, by omega⟩
    obtain ⟨u, e, _, _, hu, hl, hh⟩ := ready_word h hr
    exact ⟨r, by rw [charLoop, if_neg hh], h, hr, Nat.le_refl _⟩
  | cons row rows ih =>
    intro is r fuel h hr hf
    obtain ⟨f, rfl⟩ : ∃ f, fuel = f + 1 := ⟨fuel - 1, by omega⟩
    rw [List.flatMap_cons, List.append_assoc] at h
    unfold pairItems at h
    simp only [List.cons_append, List.nil_append] at h
    obtain ⟨u, h1, i1, n1, l1, hh⟩ := twoHex_text h hr
    have g := ih is u f i1 n1 (by omega)
    rw [rowsRes, charLoop, if_pos hh, h1]
    dsimp only
    rw [show charRes kind row = (charEntry (decide (kind = b!"bf")) row.1 row.2).map fun m => [m] from rfl]
    cases charEntry (decide (kind = b!"bf")) row.1 row.2 with
    | error e => rfl
    | ok m =>
      dsimp only [Except.map]
      cases hs : rowsRes (charRes kind) rows with
      | error e =>
        rw [hs] at g
        dsimp only at g ⊢
        rw [g]
      | ok ys =>
        rw [hs] at g
        obtain ⟨r', g1, g2, g3, g4⟩ := g
        exact ⟨r', by rw [g1]; rfl, g2, g3, by omega⟩

theorem codeLoop_is (fin : Bytes) : LoopIs codespaceLoop pairItems codeRes fin := by
  intro rows
  induction rows with
  | nil =>
    intro is r fuel h hr hf
    obtain ⟨f, rfl⟩ : ∃ f, fuel = f + 1 := ⟨fuel - 1, by omega⟩
    obtain ⟨u, e, _, _, hu, hl, hh⟩ := ready_word h hr
    exact ⟨r, by rw [codespaceLoop, if_neg hh], h, hr, Nat.le_refl _⟩
  | cons row rows ih =>
    intro is r fuel h hr hf
    obtain ⟨f, rfl⟩ : ∃ f, fuel = f + 1 := ⟨fuel - 1, by omega⟩
    rw [List.flatMap_cons, List.append_assoc] at h
    unfold pairItems at h
    simp only [List.cons_append, List.nil_append] at h
    obtain ⟨u, h1, i1, n1, l1, hh⟩ := twoHex_text h hr
    have g := ih is u f i1 n1 (by omega)
    rw [rowsRes, codespaceLoop, if_pos hh, h1]
    dsimp only
    rw [show codeRes row = (mkRange row.1 row.2).map fun r => [r] from rfl]
    cases mkRange row.1 row.2 with
    | error e => rfl
    | ok m =>
      dsimp only [Except.map]
      cases hs : rowsRes codeRes rows with
      | error e =>
        rw [hs] at g
        dsimp only at g ⊢
        rw [g]
      | ok ys =>
        rw [hs] at g
        obtain ⟨r', g1, g2, g3, g4⟩ := g
        exact ⟨r', by rw [g1]; rfl, g2, g3, by omega⟩

/-- All sections of one kind. -/
theorem sections_rows {ρ α : Type} {loop : Nat → Bytes → PRes (List α)} {kind : Bytes} {items : ρ → List Item} {f : ρ → Res (List α)}
    (hl : LoopIs loop items f (b!"end" ++ kind)) (rowsIn : Block → Option (List ρ))
    (hnone : ∀ b, Kinded b → rowsIn b = none → ∀ i ∈ b.items, i ≠ .word (b!"begin" ++ kind))
    (hsome : ∀ b rows, rowsIn b = some rows → b.items = .word (b!"begin" ++ kind) :: (rows.flatMap items ++ [.word (b!"end" ++ kind)])) (bs : List Block) :
    ∀ (pre : List Item) (u : Bytes) (fuel : Nat), (∀ b ∈ bs, Kinded b) → (∀ i ∈ pre, i ≠ .word (b!"begin" ++ kind)) →
      ItemsText (pre ++ bs.flatMap Block.items) u → u.length < fuel → sections' loop kind fuel u = rowsRes f (bs.flatMap fun b => (rowsIn b).getD []) := by
  induction bs with
  | nil =>
    intro pre u fuel _ hp h hf
    obtain ⟨f, rfl⟩ : ∃ f, fuel = f + 1 := ⟨fuel - 1, by omega⟩
    rw [List.flatMap_nil, List.append_nil] at h
    rw [sections', skipUntil_none _ pre u _ h hp (by omega)]
    rfl
  | cons b bs ih =>
    intro pre u fuel hok hp h hf
    have hb := hok b List.mem_cons_self
    have hbs : ∀ b ∈ bs, Kinded b := fun c hc => hok c (List.mem_cons_of_mem _ hc)
    cases hm : rowsIn b with
    | some rows =>
      obtain ⟨f', rfl⟩ : ∃ f', fuel = f' + 1 := ⟨fuel - 1, by omega⟩
      rw [List.flatMap_cons, hsome b rows hm, List.cons_append, List.append_assoc] at h
      obtain ⟨r, g1, g2, g3, g4⟩ := skipUntil_found _ pre _ u (u.length + 1) h hp (by omega)
      obtain ⟨u1, h1, i1, l1⟩ := expectToken_word g2 g3
      obtain ⟨r1, s1, j1, n1, m1⟩ := items_skip i1
      have k := hl rows _ r1 (r1.length + 1) j1 n1 (by omega)
      rw [List.flatMap_cons, hm, Option.getD_some, rowsRes_append, sections', g1]
      dsimp only
      unfold sectionP
      rw [h1]
      dsimp only
      rw [s1]
      dsimp only
      cases hs : rowsRes f rows with
      | error e =>
        rw [hs] at k
        dsimp only at k ⊢
        rw [k]
      | ok ys =>
        rw [hs] at k
        obtain ⟨r2, k1, k2, k3, k4⟩ := k
        obtain ⟨u3, h3, i3, l3⟩ := expectToken_word k2 k3
        dsimp only
        rw [k1]
        dsimp only
        rw [h3]
        dsimp only
        rw [ih [] u3 f' hbs (by simp) i3 (by omega)]
        cases rowsRes f (bs.flatMap fun b => (rowsIn b).getD []) <;> rfl
    | none =>
      rw [List.flatMap_cons, hm]
      exact ih (pre ++ b.items) u fuel hbs (by
        intro i hi
        rw [List.mem_append] at hi
        rcases hi with hi | hi
        · exact hp i hi
        · exact hnone b hb hm i hi) (by rw [List.append_assoc]; rw [List.flatMap_cons] at h; exact h) hf

theorem ranges_rows (kind : Bytes) (hk : kind ∈ kinds) (bs : List Block) (hok : ∀ b ∈ bs, Kinded b) (u : Bytes) (h : ItemsText (bs.flatMap Block.items) u) :
    allSections rangeLoop (kind ++ b!"range") u = rowsRes rangeRes (rangeRows kind bs) := by
  have e := sections_rows (rangeLoop_is (b!"end" ++ (kind ++ b!"range"))) (kind := kind ++ b!"range") (fun b => match b with | .ranges k rows => if k = kind then some rows else none | _ => none)
    ?_ ?_ bs [] u (u.length + 1) hok (by simp) h (by omega)
  · unfold allSections
    rw [e]
    congr 1
    unfold rangeRows
    congr 1
    funext b
    cases b with
    | ranges k rows => dsimp only; by_cases hkk : k = kind <;> simp [hkk]
    | _ => rfl
  · intro b hb hm
    refine block_words hb (kind_word kind hk).1 fun he => ?_
    cases b with
    | item i => cases he
    | chars k rows => injection he with he; exact range_ne_char he.symm
    | codespace rows =>
      injection he with he
      simp only [kinds, List.mem_cons, List.not_mem_nil, or_false] at hk
      rcases hk with rfl | rfl | rfl <;> revert he <;> decide
    | ranges k rows =>
      injection he with he
      dsimp only at hm
      rw [if_pos (append_range_inj he)] at hm
      cases hm
  · intro b rows hm
    cases b with
    | ranges k rows' =>
      dsimp only at hm
      by_cases hkk : k = kind
      · subst hkk
        rw [if_pos rfl] at hm
        cases hm
        rfl
      · rw [if_neg hkk] at hm; cases hm
    | _ => cases hm

theorem chars_rows (kind : Bytes) (hk : kind ∈ kinds) (bs : List Block) (hok : ∀ b ∈ bs, Kinded b) (u : Bytes) (h : ItemsText (bs.flatMap Block.items) u) :
    allSections (charLoop (decide (kind = b!"bf"))) (kind ++ b!"char") u = rowsRes (charRes kind) (charRows kind bs) := by
  have e := sections_rows (charLoop_is kind (b!"end" ++ (kind ++ b!"char"))) (kind := kind ++ b!"char") (fun b => match b with | .chars k rows => if k = kind then some rows else none | _ => none)
    ?_ ?_ bs [] u (u.length + 1) hok (by simp) h (by omega)
  · unfold allSections
    rw [e]
    congr 1
    unfold charRows
    congr 1
    funext b
    cases b with
    | chars k rows => dsimp only; by_cases hkk : k = kind <;> simp [hkk]
    | _ => rfl
  · intro b hb hm
    refine block_words hb (kind_word kind hk).2 fun he => ?_
    cases b with
    | item i => cases he
    | ranges k rows => injection he with he; exact range_ne_char he
    | codespace rows =>
      injection he with he
      simp only [kinds, List.mem_cons, List.not_mem_nil, or_false] at hk
      rcases hk with rfl | rfl | rfl <;> revert he <;> decide
    | chars k rows =>
      injection he with he
      dsimp only at hm
      rw [if_pos (append_range_inj he)] at hm
      cases hm
  · intro b rows hm
    cases b with
    | chars k rows' =>
      dsimp only at hm
      by_cases hkk : k = kind
      · subst hkk
        rw [if_pos rfl] at hm
        cases hm
        rfl
      · rw [if_neg hkk] at hm; cases hm
    | _ => cases hm

theorem codes_rows (bs : List Block) (hok : ∀ b ∈ bs, Kinded b) (u : Bytes) (h : ItemsText (bs.flatMap Block.items) u) :
    allSections codespaceLoop b!"codespacerange" u = rowsRes codeRes (codespaceRows bs) := by
  have e := sections_rows (codeLoop_is b!"endcodespacerange") (kind := b!"codespacerange") (fun b => match b with | .codespace rows => some rows | _ => none)
    ?_ ?_ bs [] u (u.length + 1) hok (by simp) h (by omega)
  · unfold allSections
    rw [e]
    congr 1
    unfold codespaceRows
    congr 1
    funext b
    cases b <;> rfl
  · intro b hb hm
    refine block_words hb (show b!"begincodespacerange" ∈ beginWords by decide) fun he => ?_
    cases b with
    | item i => cases he
    | ranges k rows =>
      injection he with he
      have hk : k ∈ kinds := hb
      simp only [kinds, List.mem_cons, List.not_mem_nil, or_false] at hk
      rcases hk with rfl | rfl | rfl <;> revert he <;> decide
    | chars k rows =>
      injection he with he
      have hk : k ∈ kinds := hb
      simp only [kinds, List.mem_cons, List.not_mem_nil, or_false] at hk
      rcases hk with rfl | rfl | rfl <;> revert he <;> decide
    | codespace rows => cases hm
  · intro b rows hm
    cases b with
    | codespace rows' => cases hm; rfl
    | _ => cases hm

/-- The whole CMap: the rows of the codespace, then those of each kind; the first which fails is the failure of all. -/
theorem cmapP_rows {n : Nat} {bs : List Block} {t : Bytes} (hok : ∀ b ∈ bs, Kinded b) (h : CMapText n bs t) :
    ∃ nm, cmapP t =
      (rowsRes codeRes (codespaceRows bs)).bind fun cs =>
      (rowsRes rangeRes (rangeRows b!"cid" bs)).bind fun cr =>
      (rowsRes (charRes b!"cid") (charRows b!"cid" bs)).bind fun cc =>
      (rowsRes rangeRes (rangeRows b!"notdef" bs)).bind fun nr =>
      (rowsRes (charRes b!"notdef") (charRows b!"notdef" bs)).bind fun nc =>
      (rowsRes rangeRes (rangeRows b!"bf" bs)).bind fun br =>
      (rowsRes (charRes b!"bf") (charRows b!"bf" bs)).bind fun bc =>
        .ok { name := nm, codespace := cs, cid := cr ++ cc, notdef := nr ++ nc, bf := br ++ bc } := by
  obtain ⟨r, h1, i1, hw⟩ := cmapHead_text h
  obtain ⟨r1, h2, i2, _, _⟩ := items_skip i1
  obtain ⟨nm, hn⟩ : ∃ nm, cmapNameOpt r1 = .ok nm := by
    unfold cmapNameOpt
    rcases cmapName_text i2 with ⟨m, hm, e⟩ | ⟨hm, e⟩
    · exact ⟨some m, by rw [hm]⟩
    · exact ⟨none, by rw [hm]⟩
  refine ⟨nm, ?_⟩
  have hc := codes_rows bs hok r1 i2
  have b1 := ranges_rows b!"cid" (by decide) bs hok r1 i2
  have b2 := chars_rows b!"cid" (by decide) bs hok r1 i2
  have b3 := ranges_rows b!"notdef" (by decide) bs hok r1 i2
  have b4 := chars_rows b!"notdef" (by decide) bs hok r1 i2
  have b5 := ranges_rows b!"bf" (by decide) bs hok r1 i2
  have b6 := chars_rows b!"bf" (by decide) bs hok r1 i2
  rw [show b!"cid" ++ b!"range" = b!"cidrange" by rfl] at b1
  rw [show b!"cid" ++ b!"char" = b!"cidchar" by rfl, show decide (b!"cid" = b!"bf") = false by rfl] at b2
  rw [show b!"notdef" ++ b!"range" = b!"notdefrange" by rfl] at b3
  rw [show b!"notdef" ++ b!"char" = b!"notdefchar" by rfl, show decide (b!"notdef" = b!"bf") = false by rfl] at b4
  rw [show b!"bf" ++ b!"range" = b!"bfrange" by rfl] at b5
  rw [show b!"bf" ++ b!"char" = b!"bfchar" by rfl, show decide (b!"bf" = b!"bf") = true by rfl] at b6
  unfold cmapP
  rw [h1]; dsimp only
  rw [h2]; dsimp only
  unfold cmapBody
  rw [hn]; dsimp only
  rw [hc, b1, b2, b3, b4, b5, b6]
  cases rowsRes codeRes (codespaceRows bs) with
  | error e => rfl
  | ok cs =>
  cases rowsRes rangeRes (rangeRows b!"cid" bs) with
  | error e => rfl
  | ok cr =>
  cases rowsRes (charRes b!"cid") (charRows b!"cid" bs) with
  | error e => rfl
  | ok cc =>
  cases rowsRes rangeRes (rangeRows b!"notdef" bs) with
  | error e => rfl
  | ok nr =>
  cases rowsRes (charRes b!"notdef") (charRows b!"notdef" bs) with
  | error e => rfl
  | ok nc =>
  cases rowsRes rangeRes (rangeRows b!"bf" bs) with
  | error e => rfl
  | ok br =>
  cases rowsRes (charRes b!"bf") (charRows b!"bf" bs) with
  | error e => rfl
  | ok bc => rfl

end PdfReader
