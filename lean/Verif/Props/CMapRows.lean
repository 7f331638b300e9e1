/-
  C132 and C133: the codes of a CMap, and CMaps with rows which are not proper.
-/
import Verif.Spec.CMapRows
import Verif.Model.CMapList
import Verif.Lemmas.CMapRows
import Verif.Props.CMap

namespace PdfReader

open Spec

/-! ### C133: rows which are not proper -/

theorem written_kinded {b : Block} (h : b.Written) : Kinded b := by
  cases b with
  | item i => exact h
  | ranges k rows => exact h.1
  | chars k rows => exact h.1
  | codespace rows => trivial

/-- The failures for rows which are not proper. -/
def rowFailures : List Exc := [.assertion, .valueError, .indexError]

theorem mkRange_cases {a b : Bytes} (ha : UpHex a) (hb : UpHex b) :
    (ProperBounds a b ∧ mkRange a b = .ok ⟨a.length, hexValue a, hexValue b⟩) ∨ (¬ ProperBounds a b ∧ ∃ e ∈ rowFailures, mkRange a b = .error e) := by
  by_cases hl : a.length = b.length
  · by_cases hn : a = []
    · refine .inr ⟨fun h => h.1 hn, .valueError, by decide, ?_⟩
      subst hn
      unfold mkRange
      rw [if_neg (by simpa using hl)]
      rfl
    · have hn' : b ≠ [] := by rintro rfl; exact hn (List.eq_nil_of_length_eq_zero hl)
      by_cases hle : hexValue a ≤ hexValue b
      · exact .inl ⟨⟨hn, hl, hle⟩, mkRange_ok hn hl hle ha hb⟩
      · refine .inr ⟨fun h => hle h.2.2, .valueError, by decide, ?_⟩
        unfold mkRange
        rw [if_neg (by simpa using hl), hexNat_val hn ha, hexNat_val hn' hb]
        dsimp only
        rw [if_pos (by omega)]
  · refine .inr ⟨fun h => hl h.2.1, .assertion, by decide, ?_⟩
    unfold mkRange
    rw [if_pos hl]

theorem charsFrom_short (size : Nat) (k : Nat) : ∀ (n : Nat) (ds : List Bytes), ds.length < k → charsFrom size k n (ds.map .hex) = .error .indexError := by
  induction k with
  | zero => intro n ds h; omega
  | succ k ih =>
    intro n ds h
    cases ds with
    | nil => rfl
    | cons d ds =>
      rw [List.map_cons, charsFrom]
      dsimp only [mkChar]
      rw [ih (n + 1) ds (by simpa using h)]

theorem rangeRes_cases {r : RangeRow} (hd : UpHex r.lo ∧ UpHex r.hi ∧ match r.dst with | .code d => UpHex d | .num _ => True | .list ds => ∀ d ∈ ds, UpHex d) :
    (ProperRow r ∧ ∃ ms, rangeRes r = .ok ms) ∨ (¬ ProperRow r ∧ ∃ e ∈ rowFailures, rangeRes r = .error e) := by
  obtain ⟨lo, hi, dst⟩ := r
  obtain ⟨h1, h2, h3⟩ := hd
  dsimp only at h1 h2 h3
  unfold ProperRow rangeRes rowEntries
  rcases mkRange_cases h1 h2 with ⟨hp, e⟩ | ⟨hp, x, hx, e⟩
  · cases dst with
    | code d =>
      dsimp only [Dst.obj] at h3 ⊢
      rw [e]
      dsimp only
      by_cases hn : d = []
      · subst hn
        exact .inr ⟨fun h => h.2 rfl, .valueError, by decide, rfl⟩
      · rw [hexNat_val hn h3]
        exact .inl ⟨⟨hp, hn⟩, _, rfl⟩
    | num n =>
      dsimp only [Dst.obj]
      rw [e]
      exact .inl ⟨⟨hp, trivial⟩, _, rfl⟩
    | list ds =>
      dsimp only [Dst.obj] at h3 ⊢
      rw [e]
      dsimp only
      have hle := hp.2.2
      by_cases hl : hexValue hi - hexValue lo < ds.length
      · obtain ⟨ms, e', _⟩ := row_ok (r := ⟨lo, hi, .list ds⟩) ⟨hp.1, hp.2.1, hp.2.2, h1, h2, hl, h3⟩
        unfold rowEntries at e'
        dsimp only [Dst.obj] at e'
        rw [e] at e'
        exact .inl ⟨⟨hp, hl⟩, ms, e'⟩
      · exact .inr ⟨fun h => hl h.2, .indexError, by decide, charsFrom_short _ _ _ _ (by omega)⟩
  · refine .inr ⟨fun h => hp h.1, x, hx, ?_⟩
    cases dst <;> dsimp only [Dst.obj] <;> rw [e]

theorem charRes_cases {kind : Bytes} {p : Bytes × Bytes} (hd : UpHex p.1 ∧ UpHex p.2) :
    ((kind ≠ b!"bf" → p.1 ≠ [] ∧ p.2 ≠ []) ∧ ∃ ms, charRes kind p = .ok ms) ∨
      (¬ (kind ≠ b!"bf" → p.1 ≠ [] ∧ p.2 ≠ []) ∧ ∃ e ∈ rowFailures, charRes kind p = .error e) := by
  unfold charRes charEntry
  by_cases hk : kind = b!"bf"
  · rw [if_pos (by simpa using hk)]
    exact .inl ⟨fun h => absurd hk h, _, rfl⟩
  · rw [if_neg (by simpa using hk)]
    rcases mkRange_cases hd.1 hd.1 with ⟨hp, e⟩ | ⟨hp, x, hx, e⟩
    · rw [e]
      dsimp only
      by_cases hn : p.2 = []
      · exact .inr ⟨fun h => (h hk).2 hn, .valueError, by decide, by rw [hn]; rfl⟩
      · rw [hexNat_val hn hd.2]
        exact .inl ⟨fun _ => ⟨hp.1, hn⟩, _, rfl⟩
    · rw [e]
      exact .inr ⟨fun h => hp ⟨(h hk).1, rfl, Nat.le_refl _⟩, x, hx, rfl⟩

theorem codeRes_cases {p : Bytes × Bytes} (hd : UpHex p.1 ∧ UpHex p.2) :
    (ProperBounds p.1 p.2 ∧ ∃ ms, codeRes p = .ok ms) ∨ (¬ ProperBounds p.1 p.2 ∧ ∃ e ∈ rowFailures, codeRes p = .error e) := by
  unfold codeRes
  rcases mkRange_cases hd.1 hd.2 with ⟨hp, e⟩ | ⟨hp, x, hx, e⟩
  · rw [e]; exact .inl ⟨hp, _, rfl⟩
  · rw [e]; exact .inr ⟨hp, x, hx, rfl⟩

theorem rows_cases {ρ α : Type} {f : ρ → Res (List α)} {P : ρ → Prop} {rs : List ρ}
    (h : ∀ r ∈ rs, (P r ∧ ∃ ms, f r = .ok ms) ∨ (¬ P r ∧ ∃ e ∈ rowFailures, f r = .error e)) :
    ((∀ r ∈ rs, P r) ∧ ∃ ms, rowsRes f rs = .ok ms) ∨ (¬ (∀ r ∈ rs, P r) ∧ ∃ e ∈ rowFailures, rowsRes f rs = .error e) := by
  cases e : rowsRes f rs with
  | ok ms =>
    refine .inl ⟨fun r hr => ?_, ms, rfl⟩
    rcases h r hr with h | ⟨_, x, _, e'⟩
    · exact h.1
    · obtain ⟨ys, e''⟩ := (rowsRes_ok e).1 r hr
      rw [e''] at e'; cases e'
  | error x =>
    obtain ⟨r, hr, e'⟩ := rowsRes_error e
    rcases h r hr with ⟨_, ms, e''⟩ | ⟨hp, y, hy, e''⟩
    · rw [e''] at e'; cases e'
    · rw [e''] at e'
      injection e' with e'
      exact .inr ⟨fun h => hp (h r hr), x, e' ▸ hy, rfl⟩

theorem written_rows {bs : List Block} (h : ∀ b ∈ bs, b.Written) :
    (∀ p ∈ codespaceRows bs, UpHex p.1 ∧ UpHex p.2) ∧ ∀ k, (∀ r ∈ rangeRows k bs, UpHex r.lo ∧ UpHex r.hi ∧
      match r.dst with | .code d => UpHex d | .num _ => True | .list ds => ∀ d ∈ ds, UpHex d) ∧ ∀ p ∈ charRows k bs, UpHex p.1 ∧ UpHex p.2 := by
  refine ⟨fun p hp => ?_, fun k => ⟨fun r hr => ?_, fun p hp => ?_⟩⟩
  · obtain ⟨b, hb, hm⟩ := List.mem_flatMap.mp hp
    cases b with
    | codespace rows => exact h _ hb p hm
    | _ => cases hm
  · obtain ⟨b, hb, hm⟩ := List.mem_flatMap.mp hr
    cases b with
    | ranges k' rows =>
      dsimp only at hm
      by_cases hk : k' = k
      · rw [if_pos hk] at hm; exact (h _ hb).2 r hm
      · rw [if_neg hk] at hm; cases hm
    | _ => cases hm
  · obtain ⟨b, hb, hm⟩ := List.mem_flatMap.mp hp
    cases b with
    | chars k' rows =>
      dsimp only at hm
      by_cases hk : k' = k
      · rw [if_pos hk] at hm; exact (h _ hb).2 p hm
      · rw [if_neg hk] at hm; cases hm
    | _ => cases hm

theorem cmap_cases {n : Nat} {bs : List Block} {t : Bytes} (hok : ∀ b ∈ bs, b.Written) (h : CMapText n bs t) :
    (AllProper bs ∧ ∃ c, cmapP t = .ok c) ∨ (¬ AllProper bs ∧ ∃ e ∈ rowFailures, cmapP t = .error e) := by
  obtain ⟨nm, e⟩ := cmapP_rows (fun b hb => written_kinded (hok b hb)) h
  obtain ⟨w0, w⟩ := written_rows hok
  rw [e]
  have kall : ∀ k ∈ kinds, k = b!"cid" ∨ k = b!"notdef" ∨ k = b!"bf" := by decide
  rcases rows_cases (f := codeRes) (P := fun p => ProperBounds p.1 p.2) (fun p hp => codeRes_cases (w0 p hp)) with ⟨p0, x0, e0⟩ | ⟨p0, x, hx, e0⟩
  rotate_left
  · exact .inr ⟨fun a => p0 a.1, x, hx, by rw [e0]; rfl⟩
  rw [e0]
  rcases rows_cases (f := rangeRes) (P := ProperRow) (rs := rangeRows b!"cid" bs) (fun p hp => rangeRes_cases ((w _).1 p hp)) with ⟨p1, x1, e1⟩ | ⟨p1, x, hx, e1⟩
  rotate_left
  · exact .inr ⟨fun a => p1 (a.2 _ (by decide)).1, x, hx, by rw [e1]; rfl⟩
  rw [e1]
  rcases rows_cases (f := charRes b!"cid") (P := fun p => b!"cid" ≠ b!"bf" → p.1 ≠ [] ∧ p.2 ≠ []) (rs := charRows b!"cid" bs) (fun p hp => charRes_cases ((w _).2 p hp))
    with ⟨p2, x2, e2⟩ | ⟨p2, x, hx, e2⟩
  rotate_left
  · exact .inr ⟨fun a => p2 fun p hp hk => (a.2 _ (by decide)).2 hk p hp, x, hx, by rw [e2]; rfl⟩
  rw [e2]
  rcases rows_cases (f := rangeRes) (P := ProperRow) (rs := rangeRows b!"notdef" bs) (fun p hp => rangeRes_cases ((w _).1 p hp)) with ⟨p3, x3, e3⟩ | ⟨p3, x, hx, e3⟩
  rotate_left
  · exact .inr ⟨fun a => p3 (a.2 _ (by decide)).1, x, hx, by rw [e3]; rfl⟩
  rw [e3]
  rcases rows_cases (f := charRes b!"notdef") (P := fun p => b!"notdef" ≠ b!"bf" → p.1 ≠ [] ∧ p.2 ≠ []) (rs := charRows b!"notdef" bs) (fun p hp => charRes_cases ((w _).2 p hp))
    with ⟨p4, x4, e4⟩ | ⟨p4, x, hx, e4⟩
  rotate_left
  · exact .inr ⟨fun a => p4 fun p hp hk => (a.2 _ (by decide)).2 hk p hp, x, hx, by rw [e4]; rfl⟩
  rw [e4]
  rcases rows_cases (f := rangeRes) (P := ProperRow) (rs := rangeRows b!"bf" bs) (fun p hp => rangeRes_cases ((w _).1 p hp)) with ⟨p5, x5, e5⟩ | ⟨p5, x, hx, e5⟩
  rotate_left
  · exact .inr ⟨fun a => p5 (a.2 _ (by decide)).1, x, hx, by rw [e5]; rfl⟩
  rw [e5]
  rcases rows_cases (f := charRes b!"bf") (P := fun p => b!"bf" ≠ b!"bf" → p.1 ≠ [] ∧ p.2 ≠ []) (rs := charRows b!"bf" bs) (fun p hp => charRes_cases ((w _).2 p hp))
    with ⟨p6, x6, e6⟩ | ⟨p6, x, hx, e6⟩
  rotate_left
  · exact .inr ⟨fun a => p6 fun p hp hk => absurd rfl hk, x, hx, by rw [e6]; rfl⟩
  rw [e6]
  refine .inl ⟨⟨p0, fun k hk => ?_⟩, _, rfl⟩
  rcases kall k hk with rfl | rfl | rfl
  · exact ⟨p1, fun h p hp => p2 p hp h⟩
  · exact ⟨p3, fun h p hp => p4 p hp h⟩
  · exact ⟨p5, fun h => absurd rfl h⟩

/-- C133: a CMap is read if and only if each of its rows is proper. -/
theorem C133_accepted (n : Nat) (bs : List Block) (t : Bytes) (hok : ∀ b ∈ bs, b.Written) (h : CMapText n bs t) : (∃ c, cmapP t = .ok c) ↔ AllProper bs := by
  rcases cmap_cases hok h with ⟨hp, e⟩ | ⟨hp, x, _, e⟩
  · exact ⟨fun _ => hp, fun _ => e⟩
  · refine ⟨fun ⟨c, e'⟩ => ?_, fun h => absurd h hp⟩
    rw [e'] at e; cases e

/-- C133: otherwise the user gets AssertionError, ValueError or IndexError, and no CMap with some of the rows. -/
theorem C133_refused (n : Nat) (bs : List Block) (t : Bytes) (hok : ∀ b ∈ bs, b.Written) (h : CMapText n bs t) (hp : ¬ AllProper bs) :
    cmapP t = .error .assertion ∨ cmapP t = .error .valueError ∨ cmapP t = .error .indexError := by
  rcases cmap_cases hok h with ⟨hp', _⟩ | ⟨_, x, hx, e⟩
  · exact absurd hp' hp
  · rw [e]
    simp only [rowFailures, List.mem_cons, List.not_mem_nil, or_false] at hx
    rcases hx with rfl | rfl | rfl
    · exact .inl rfl
    · exact .inr (.inl rfl)
    · exact .inr (.inr rfl)

/-- Bounds of different lengths, after a proper row. -/
def badBlocks : List Block := [.ranges b!"bf" [⟨b!"00", b!"0F", .code b!"0041"⟩, ⟨b!"10", b!"0020", .code b!"0061"⟩]]

def badText : Bytes := b!" /CIDInit /ProcSet findresource begin 9 dict begin begincmap beginbfrange <00> <0F> <0041> <10> <0020> <0061> endbfrange "

set_option maxRecDepth 20000 in
theorem bad_text : CMapText 9 badBlocks badText := by
  have h0 : ItemsText [] (32 :: []) := .nil _ exSep
  have h5 := exWord (w := b!"endbfrange") h0 (by decide) (by decide) (by decide)
  have h6 := exHex (d := b!"10") (exHex (d := b!"0020") (exHex (d := b!"0061") h5 (by unfold UpHex; decide) (by decide))
    (by unfold UpHex; decide) (by decide)) (by unfold UpHex; decide) (by decide)
  have h7 := exHex (d := b!"00") (exHex (d := b!"0F") (exHex (d := b!"0041") h6 (by unfold UpHex; decide) (by decide))
    (by unfold UpHex; decide) (by decide)) (by unfold UpHex; decide) (by decide)
  have h11 := exWord (w := b!"beginbfrange") h7 (by decide) (by decide) (by decide)
  have h12 := exWord (w := b!"dict") (exWord (w := b!"begin") (exWord (w := b!"begincmap") h11 (by decide) (by decide) (by decide))
    (by decide) (by decide) (by decide)) (by decide) (by decide) (by decide)
  have h13 := exWord (w := b!"findresource") (exWord (w := b!"begin") (exInt (c := 57) h12 (by decide)) (by decide) (by decide) (by decide))
    (by decide) (by decide) (by decide)
  exact exName (n := b!"CIDInit") (exName (n := b!"ProcSet") h13 (by decide) (by decide)) (by decide) (by decide)

theorem bad_written : ∀ b ∈ badBlocks, b.Written := by
  intro b hb
  simp only [badBlocks, List.mem_cons, List.not_mem_nil, or_false] at hb
  subst hb
  simp [Block.Written, UpHex, kinds]

theorem bad_improper : ¬ AllProper badBlocks := fun h =>
  absurd ((h.2 b!"bf" (by decide)).1 ⟨b!"10", b!"0020", .code b!"0061"⟩ (by simp [badBlocks, rangeRows])).1.2.1 (by decide)

/-- The hypotheses of C133 are met, and the proper row before does not help. -/
example : cmapP badText = .error .assertion ∨ cmapP badText = .error .valueError ∨ cmapP badText = .error .indexError :=
  C133_refused 9 badBlocks badText bad_written bad_text bad_improper

/-! ### C132: the codes of a CMap -/

theorem insert_mem (x y : Bytes) : ∀ l : List Bytes, y ∈ insertCode x l ↔ y = x ∨ y ∈ l
  | [] => by simp [insertCode]
  | z :: l => by
    unfold insertCode
    split
    · simp
    · split
      · rename_i h; subst h; simp
      · simp only [List.mem_cons, insert_mem x y l]
        constructor
        · rintro (h | h | h)
          · exact .inr (.inl h)
          · exact .inl h
          · exact .inr (.inr h)
        · rintro (h | h | h)
          · exact .inr (.inl h)
          · exact .inl h
          · exact .inr (.inr h)

theorem insert_sorted (x : Bytes) : ∀ l : List Bytes, l.Pairwise (· < ·) → (insertCode x l).Pairwise (· < ·)
  | [], _ => by simp [insertCode]
  | z :: l, h => by
    rw [List.pairwise_cons] at h
    unfold insertCode
    split
    · rename_i hx
      rw [List.pairwise_cons, List.pairwise_cons]
      refine ⟨fun y hy => ?_, h⟩
      rcases List.mem_cons.mp hy with e | hy
      · rw [e]; exact hx
      · exact List.lt_trans hx (h.1 y hy)
    · rename_i hx
      split
      · rw [List.pairwise_cons]; exact h
      · rename_i hne
        rw [List.pairwise_cons]
        refine ⟨fun y hy => ?_, insert_sorted x l h.2⟩
        rcases (insert_mem x y l).mp hy with e | hy
        · rw [e]
          rcases List.le_iff_lt_or_eq.mp (List.not_lt.mp hx) with h' | h'
          · exact h'
          · exact absurd h'.symm hne
        · exact h.1 y hy

theorem sort_mem (y : Bytes) (l : List Bytes) : y ∈ sortCodes l ↔ y ∈ l := by
  unfold sortCodes
  induction l with
  | nil => simp
  | cons x l ih => rw [List.foldr_cons, insert_mem, ih, List.mem_cons]

theorem sort_sorted (l : List Bytes) : (sortCodes l).Pairwise (· < ·) := by
  unfold sortCodes
  induction l with
  | nil => simp
  | cons x l ih => rw [List.foldr_cons]; exact insert_sorted x _ ih

/-- The codes of a range. -/
theorem codes_mem {a b : Bytes} (hp : ProperBounds a b) (hb : UpHex b) (x : Bytes) :
    x ∈ rangeCodes ⟨a.length, hexValue a, hexValue b⟩ ↔ UpHex x ∧ InRange a b x := by
  have hlt := hexValue_lt hb
  rw [← hp.2.1] at hlt
  unfold rangeCodes
  rw [List.mem_map]
  constructor
  · rintro ⟨n, hn, rfl⟩
    have hn' : hexValue a ≤ n ∧ n ≤ hexValue b := by
      obtain ⟨i, h1, h2⟩ := List.mem_range'.mp hn
      dsimp only at h1 h2
      omega
    obtain ⟨z1, z2, z3⟩ := zfill_facts (size := a.length) (n := n) (by omega)
    dsimp only
    exact ⟨z1, z3, by omega, by omega⟩
  · rintro ⟨hx, h1, h2, h3⟩
    refine ⟨hexValue x, List.mem_range'.mpr ⟨hexValue x - hexValue a, by dsimp only; omega, by dsimp only; omega⟩, ?_⟩
    obtain ⟨z1, z2, z3⟩ := zfill_facts (size := a.length) (n := hexValue x) (by omega)
    exact hexValue_inj z1 hx (by dsimp only; omega) z2

theorem codesList_mem (rows : List (Bytes × Bytes)) (hok : ∀ p ∈ rows, ProperBounds p.1 p.2 ∧ UpHex p.2) (x : Bytes) :
    x ∈ codesList (rows.map fun p => ⟨p.1.length, hexValue p.1, hexValue p.2⟩) ↔ UpHex x ∧ ∃ p ∈ rows, InRange p.1 p.2 x := by
  unfold codesList
  rw [sort_mem, List.mem_flatMap]
  constructor
  · rintro ⟨r, hr, hx⟩
    obtain ⟨p, hp, rfl⟩ := List.mem_map.mp hr
    obtain ⟨h1, h2⟩ := (codes_mem (hok p hp).1 (hok p hp).2 x).mp hx
    exact ⟨h1, p, hp, h2⟩
  · rintro ⟨h1, p, hp, h2⟩
    exact ⟨_, List.mem_map_of_mem hp, (codes_mem (hok p hp).1 (hok p hp).2 x).mpr ⟨h1, h2⟩⟩

theorem codesContain_eq (x : Bytes) (hx : CodeOk x) : ∀ rows : List (Bytes × Bytes), (∀ p ∈ rows, ProperBounds p.1 p.2) →
    codesContain (rows.map fun p => ⟨p.1.length, hexValue p.1, hexValue p.2⟩) x = .ok (decide (∃ p ∈ rows, InRange p.1 p.2 x))
  | [], _ => by simp [codesContain]
  | p :: rows, hok => by
    have hp := hok p List.mem_cons_self
    rw [List.map_cons, codesContain, contains_eq hp.2.1 hx hp.1]
    have ih := codesContain_eq x hx rows fun q hq => hok q (List.mem_cons_of_mem _ hq)
    by_cases h : InRange p.1 p.2 x
    · simp [h]
    · simp [h, ih]

theorem codesMax_eq (rows : List (Bytes × Bytes)) (h : rows ≠ []) : ∃ m, codesMax (rows.map fun p => ⟨p.1.length, hexValue p.1, hexValue p.2⟩) = .ok m ∧
    (∃ p ∈ rows, hexValue p.2 = m) ∧ ∀ p ∈ rows, hexValue p.2 ≤ m := by
  have key : ∀ (rs : List (Bytes × Bytes)) (m : Nat), ∃ k, (rs.map fun p => (⟨p.1.length, hexValue p.1, hexValue p.2⟩ : CodeRange)).foldl (fun m r => max m r.hi) m = k ∧
      (k = m ∨ ∃ p ∈ rs, hexValue p.2 = k) ∧ m ≤ k ∧ ∀ p ∈ rs, hexValue p.2 ≤ k := by
    intro rs
    induction rs with
    | nil => intro m; exact ⟨m, rfl, .inl rfl, Nat.le_refl _, by simp⟩
    | cons q rs ih =>
      intro m
      obtain ⟨k, h1, h2, h3, h4⟩ := ih (max m (hexValue q.2))
      refine ⟨k, h1, ?_, by omega, fun p hp => ?_⟩
      · rcases h2 with h2 | ⟨p, hp, h2⟩
        · by_cases hm : hexValue q.2 ≤ m
          · exact .inl (by omega)
          · exact .inr ⟨q, List.mem_cons_self, by omega⟩
        · exact .inr ⟨p, List.mem_cons_of_mem _ hp, h2⟩
      · rcases List.mem_cons.mp hp with e | hp
        · rw [e]; omega
        · exact h4 p hp
  cases rows with
  | nil => exact absurd rfl h
  | cons p rows =>
    obtain ⟨k, h1, h2, h3, h4⟩ := key rows (hexValue p.2)
    refine ⟨k, ?_, ?_, fun q hq => ?_⟩
    · rw [List.map_cons, codesMax, h1]
    · rcases h2 with h2 | ⟨q, hq, h2⟩
      · exact ⟨p, List.mem_cons_self, h2.symm⟩
      · exact ⟨q, List.mem_cons_of_mem _ hq, h2⟩
    · rcases List.mem_cons.mp hq with e | hq
      · rw [e]; exact h3
      · exact h4 q hq

theorem codespace_rows_ok {bs : List Block} (hok : ∀ b ∈ bs, b.Ok) : ∀ p ∈ codespaceRows bs, PairOk p := by
  intro p hp
  obtain ⟨b, hb, hm⟩ := List.mem_flatMap.mp hp
  cases b with
  | codespace rows => exact hok _ hb p hm
  | _ => cases hm

theorem range_rows_ok {bs : List Block} (hok : ∀ b ∈ bs, b.Ok) (k : Bytes) : ∀ r ∈ rangeRows k bs, r.Ok := by
  intro r hr
  obtain ⟨b, hb, hm⟩ := List.mem_flatMap.mp hr
  cases b with
  | ranges k' rows =>
    dsimp only at hm
    by_cases hk : k' = k
    · rw [if_pos hk] at hm; exact (hok _ hb).2 r hm
    · rw [if_neg hk] at hm; cases hm
  | _ => cases hm

theorem char_rows_ok {bs : List Block} (hok : ∀ b ∈ bs, b.Ok) (k : Bytes) : ∀ p ∈ charRows k bs, CharOk p := by
  intro p hp
  obtain ⟨b, hb, hm⟩ := List.mem_flatMap.mp hp
  cases b with
  | chars k' rows =>
    dsimp only at hm
    by_cases hk : k' = k
    · rw [if_pos hk] at hm; exact (hok _ hb).2 p hm
    · rw [if_neg hk] at hm; cases hm
  | _ => cases hm

/-- C132 for the codespace: `as_list` has the codes of the ranges, each once and in order; `len` is their number; `in` tells whether a code is one of them;
`max` is the greatest last code, a ValueError if there are none. -/
theorem C132_codespace (n : Nat) (bs : List Block) (t : Bytes) (hok : ∀ b ∈ bs, b.Ok) (h : CMapText n bs t) :
    ∃ c, cmapP t = .ok c ∧ (codesList c.codespace).Pairwise (· < ·) ∧
      (∀ x, x ∈ codesList c.codespace ↔ UpHex x ∧ ∃ p ∈ codespaceRows bs, InRange p.1 p.2 x) ∧
      (∀ x, CodeOk x → codesContain c.codespace x = .ok (decide (x ∈ codesList c.codespace))) ∧
      (codespaceRows bs ≠ [] → ∃ m, codesMax c.codespace = .ok m ∧ (∃ p ∈ codespaceRows bs, hexValue p.2 = m) ∧ ∀ p ∈ codespaceRows bs, hexValue p.2 ≤ m) ∧
      (codespaceRows bs = [] → codesMax c.codespace = .error .valueError) := by
  obtain ⟨c, h1, _, h3, _⟩ := C35_cmap n bs t hok h
  have hp : ∀ p ∈ codespaceRows bs, ProperBounds p.1 p.2 ∧ UpHex p.2 := fun p hp =>
    have := codespace_rows_ok hok p hp
    ⟨⟨this.1, this.2.1, this.2.2.1⟩, this.2.2.2.2⟩
  refine ⟨c, h1, sort_sorted _, ?_, ?_, ?_, fun he => by rw [h3, he]; rfl⟩
  · intro x; rw [h3]; exact codesList_mem _ hp x
  · intro x hx
    rw [h3, codesContain_eq x hx _ fun p hm => (hp p hm).1]
    congr 1
    rw [decide_eq_decide, codesList_mem _ hp x]
    exact ⟨fun h => ⟨hx.2, h⟩, fun h => h.2⟩
  · intro hne; rw [h3]; exact codesMax_eq _ hne

/-- C132 for one range of the codespace: iterating gives as many codes as `len` says, the codes of the range. -/
theorem C132_range (n : Nat) (bs : List Block) (t : Bytes) (hok : ∀ b ∈ bs, b.Ok) (h : CMapText n bs t) :
    ∃ c, cmapP t = .ok c ∧ c.codespace.length = (codespaceRows bs).length ∧ ∀ r ∈ c.codespace, rangeLen r = (rangeCodes r).length ∧
      ∃ p ∈ codespaceRows bs, ∀ x, x ∈ rangeCodes r ↔ UpHex x ∧ InRange p.1 p.2 x := by
  obtain ⟨c, h1, _, h3, _⟩ := C35_cmap n bs t hok h
  have hp : ∀ p ∈ codespaceRows bs, ProperBounds p.1 p.2 ∧ UpHex p.2 := fun p hp =>
    have := codespace_rows_ok hok p hp
    ⟨⟨this.1, this.2.1, this.2.2.1⟩, this.2.2.2.2⟩
  refine ⟨c, h1, by rw [h3, List.length_map], fun r hr => ?_⟩
  rw [h3] at hr
  obtain ⟨p, hm, rfl⟩ := List.mem_map.mp hr
  refine ⟨?_, p, hm, fun x => ?_⟩
  · have := (hp p hm).1.2.2
    simp only [rangeLen, rangeCodes, List.length_map, List.length_range']
    omega
  · have := codesList_mem [p] (fun q hq => by rw [List.mem_singleton] at hq; subst hq; exact hp _ hm) x
    rw [← sort_mem]
    simpa [codesList] using this

theorem entryRanges_append {ms ns : List MapEntry} {rs qs : List CodeRange} (h : entryRanges ms = .ok rs) (h' : entryRanges ns = .ok qs) : entryRanges (ms ++ ns) = .ok (rs ++ qs) := by
  induction ms generalizing rs with
  | nil => cases h; exact h'
  | cons m ms ih =>
    cases m with
    | char a b => cases h
    | range r d =>
      unfold entryRanges at h
      cases e : entryRanges ms with
      | error x => rw [e] at h; cases h
      | ok rs' =>
        rw [e] at h; cases h
        rw [List.cons_append, entryRanges, ih e]
        rfl

theorem entryRanges_char {ms : List MapEntry} {a b : Bytes} (h : .char a b ∈ ms) : entryRanges ms = .error .attributeError := by
  induction ms with
  | nil => cases h
  | cons m ms ih =>
    cases m with
    | char a b => rfl
    | range r d =>
      rcases List.mem_cons.mp h with h | h
      · cases h
      · rw [entryRanges, ih h]

theorem range_numbers {rows : List RangeRow} (h : ∀ r ∈ rows, r.Ok ∧ ∀ ds, r.dst ≠ .list ds) :
    ∃ ms, rowsRes rangeRes rows = .ok ms ∧ entryRanges ms = .ok (rows.map fun r => ⟨r.lo.length, hexValue r.lo, hexValue r.hi⟩) := by
  induction rows with
  | nil => exact ⟨[], rfl, rfl⟩
  | cons r rows ih =>
    obtain ⟨ms, e1, e2⟩ := ih fun q hq => h q (List.mem_cons_of_mem _ hq)
    obtain ⟨hr, hl⟩ := h r List.mem_cons_self
    obtain ⟨lo, hi, dst⟩ := r
    obtain ⟨o1, o2, o3, o4, o5, o6⟩ := hr
    obtain ⟨d, e⟩ : ∃ d, rangeRes ⟨lo, hi, dst⟩ = .ok [.range ⟨lo.length, hexValue lo, hexValue hi⟩ d] := by
      unfold rangeRes rowEntries
      cases dst with
      | code d =>
        dsimp only [Dst.obj]
        rw [mkRange_ok o1 o2 o3 o4 o5]
        dsimp only
        rw [hexNat_val o6.1 o6.2]
        exact ⟨_, rfl⟩
      | num k =>
        dsimp only [Dst.obj]
        rw [mkRange_ok o1 o2 o3 o4 o5]
        exact ⟨_, rfl⟩
      | list ds => exact absurd rfl (hl ds)
    refine ⟨_, by rw [rowsRes, e]; dsimp only; rw [e1], ?_⟩
    rw [List.singleton_append, entryRanges, e2]
    rfl

theorem char_numbers {kind : Bytes} (hk : kind ≠ b!"bf") {rows : List (Bytes × Bytes)} (h : ∀ p ∈ rows, CharOk p) :
    ∃ ms, rowsRes (charRes kind) rows = .ok ms ∧ entryRanges ms = .ok (rows.map fun p => ⟨p.1.length, hexValue p.1, hexValue p.1⟩) := by
  induction rows with
  | nil => exact ⟨[], rfl, rfl⟩
  | cons p rows ih =>
    obtain ⟨ms, e1, e2⟩ := ih fun q hq => h q (List.mem_cons_of_mem _ hq)
    obtain ⟨o1, o2, o3, o4⟩ := h p List.mem_cons_self
    have e : charRes kind p = .ok [.range ⟨p.1.length, hexValue p.1, hexValue p.1⟩ (hexValue p.2)] := by
      unfold charRes charEntry
      rw [if_neg (by simpa using hk), mkRange_ok o1 rfl (Nat.le_refl _) o2 o2]
      dsimp only
      rw [hexNat_val o3 o4]
      rfl
    refine ⟨_, by rw [rowsRes, e]; dsimp only; rw [e1], ?_⟩
    rw [List.singleton_append, entryRanges, e2]
    rfl

/-- The mappings of a CMap by their rows. -/
theorem mapping_rows {n : Nat} {bs : List Block} {t : Bytes} (hok : ∀ b ∈ bs, b.Ok) (h : CMapText n bs t) {c : CMap} (hc : cmapP t = .ok c) {kind : Bytes} (hk : kind ∈ kinds) :
    ∃ ms ns, rowsRes rangeRes (rangeRows kind bs) = .ok ms ∧ rowsRes (charRes kind) (charRows kind bs) = .ok ns ∧ c.mapping kind = ms ++ ns := by
  obtain ⟨nm, e⟩ := cmapP_rows (fun b hb => kinded_ok (hok b hb)) h
  rw [hc] at e
  cases e0 : rowsRes codeRes (codespaceRows bs) with
  | error x => rw [e0] at e; cases e
  | ok x0 =>
  rw [e0] at e
  cases e1 : rowsRes rangeRes (rangeRows b!"cid" bs) with
  | error x => rw [e1] at e; cases e
  | ok x1 =>
  rw [e1] at e
  cases e2 : rowsRes (charRes b!"cid") (charRows b!"cid" bs) with
  | error x => rw [e2] at e; cases e
  | ok x2 =>
  rw [e2] at e
  cases e3 : rowsRes rangeRes (rangeRows b!"notdef" bs) with
  | error x => rw [e3] at e; cases e
  | ok x3 =>
  rw [e3] at e
  cases e4 : rowsRes (charRes b!"notdef") (charRows b!"notdef" bs) with
  | error x => rw [e4] at e; cases e
  | ok x4 =>
  rw [e4] at e
  cases e5 : rowsRes rangeRes (rangeRows b!"bf" bs) with
  | error x => rw [e5] at e; cases e
  | ok x5 =>
  rw [e5] at e
  cases e6 : rowsRes (charRes b!"bf") (charRows b!"bf" bs) with
  | error x => rw [e6] at e; cases e
  | ok x6 =>
  rw [e6] at e
  injection e with e
  subst e
  have kall : ∀ k ∈ kinds, k = b!"bf" ∨ k = b!"cid" ∨ k = b!"notdef" := by decide
  rcases kall kind hk with rfl | rfl | rfl
  · exact ⟨x5, x6, e5, e6, rfl⟩
  · exact ⟨x1, x2, e1, e2, rfl⟩
  · exact ⟨x3, x4, e3, e4, rfl⟩

theorem mapping_get {n : Nat} {bs : List Block} {t : Bytes} (hok : ∀ b ∈ bs, b.Ok) (h : CMapText n bs t) {c : CMap} (hc : cmapP t = .ok c) {kind : Bytes} (hk : kind ∈ kinds)
    {x : Bytes} (hx : CodeOk x) : mapGet (c.mapping kind) x = answer (lookup kind bs x) := by
  obtain ⟨c', h1, _, _, h4⟩ := C35_cmap n bs t hok h
  rw [hc] at h1; injection h1 with h1; subst h1
  have kall : ∀ k ∈ kinds, k = b!"bf" ∨ k = b!"cid" ∨ k = b!"notdef" := by decide
  rcases kall kind hk with rfl | rfl | rfl
  · exact (h4 x hx).1
  · exact (h4 x hx).2.1
  · exact (h4 x hx).2.2

theorem lookup_some (kind : Bytes) (bs : List Block) (x : Bytes) :
    lookup kind bs x ≠ none ↔ (∃ r ∈ rangeRows kind bs, InRange r.lo r.hi x) ∨ ∃ p ∈ charRows kind bs, x = p.1 := by
  unfold lookup
  rw [ne_eq, Option.or_eq_none_iff, List.findSome?_eq_none_iff, List.findSome?_eq_none_iff]
  unfold RangeRow.get charGet
  constructor
  · intro h
    by_cases hr : ∃ r ∈ rangeRows kind bs, InRange r.lo r.hi x
    · exact .inl hr
    · refine .inr (Classical.byContradiction fun hp => h ⟨fun r hm => ?_, fun p hm => ?_⟩)
      · rw [if_neg fun hi => hr ⟨r, hm, hi⟩]
      · rw [if_neg fun hi => hp ⟨p, hm, hi⟩]
  · rintro (⟨r, hm, hi⟩ | ⟨p, hm, hi⟩) ⟨h1, h2⟩
    · have := h1 r hm
      rw [if_pos hi] at this; cases this
    · have := h2 p hm
      rw [if_pos hi] at this; cases this

theorem mapPairs_ok {ms : List MapEntry} {m : Bytes → Option Text} : ∀ xs : List Bytes, (∀ x ∈ xs, mapGet ms x = answer (m x) ∧ m x ≠ none) →
    ∃ ps, mapPairs ms xs = .ok ps ∧ ps.map (·.1) = xs ∧ ∀ p ∈ ps, m p.1 = some p.2
  | [], _ => ⟨[], rfl, rfl, by simp⟩
  | x :: xs, h => by
    obtain ⟨ps, h1, h2, h3⟩ := mapPairs_ok (ms := ms) (m := m) xs fun y hy => h y (List.mem_cons_of_mem _ hy)
    obtain ⟨e, hne⟩ := h x List.mem_cons_self
    cases ht : m x with
    | none => exact absurd ht hne
    | some t =>
      refine ⟨(x, t) :: ps, ?_, by rw [List.map_cons, h2], fun p hp => ?_⟩
      · rw [mapPairs, e, ht, h1]; rfl
      · rcases List.mem_cons.mp hp with e' | hp
        · rw [e']; exact ht
        · exact h3 p hp

/-- C132 for the mappings, as far as it holds: `as_list` has the codes which are mapped, each once and in order, and `as_dict` their texts. Missing: mappings with `bfchar` rows
or arrays (below). -/
theorem C132_mapping_partial (n : Nat) (bs : List Block) (t : Bytes) (hok : ∀ b ∈ bs, b.Ok) (h : CMapText n bs t) (kind : Bytes) (hk : kind ∈ kinds) (hn : NumbersOnly kind bs) :
    ∃ c, cmapP t = .ok c ∧ ∃ codes dict, mapList (c.mapping kind) = .ok codes ∧ mapDict (c.mapping kind) = .ok dict ∧ codes.Pairwise (· < ·) ∧
      (∀ x, x ∈ codes ↔ UpHex x ∧ lookup kind bs x ≠ none) ∧ dict.map (·.1) = codes ∧ ∀ p ∈ dict, lookup kind bs p.1 = some p.2 := by
  obtain ⟨c, hc, _⟩ := C35_cmap n bs t hok h
  obtain ⟨ms, ns, e1, e2, e3⟩ := mapping_rows hok h hc hk
  obtain ⟨ms', f1, f2⟩ := range_numbers fun r hr => ⟨range_rows_ok hok kind r hr, hn.1 r hr⟩
  rw [e1] at f1; injection f1 with f1; subst f1
  obtain ⟨qs, g⟩ : ∃ qs, qs = (rangeRows kind bs).map (fun r => (r.lo, r.hi)) ++ (if kind = b!"bf" then [] else (charRows kind bs).map fun p => (p.1, p.1)) := ⟨_, rfl⟩
  have hcr : ∀ p ∈ (if kind = b!"bf" then [] else (charRows kind bs).map fun p => (p.1, p.1)), ProperBounds p.1 p.2 ∧ UpHex p.2 := by
    intro p hp
    split at hp
    · cases hp
    · obtain ⟨q, hq, rfl⟩ := List.mem_map.mp hp
      obtain ⟨o1, o2, _⟩ := char_rows_ok hok kind q hq
      exact ⟨⟨o1, rfl, Nat.le_refl _⟩, o2⟩
  have hqs : ∀ p ∈ qs, ProperBounds p.1 p.2 ∧ UpHex p.2 := by
    intro p hp
    rw [g] at hp
    rcases List.mem_append.mp hp with hp | hp
    · obtain ⟨r, hr, rfl⟩ := List.mem_map.mp hp
      obtain ⟨o1, o2, o3, o4, o5, _⟩ := range_rows_ok hok kind r hr
      exact ⟨⟨o1, o2, o3⟩, o5⟩
    · exact hcr p hp
  have hent : entryRanges (c.mapping kind) = .ok (qs.map fun p => ⟨p.1.length, hexValue p.1, hexValue p.2⟩) := by
    rw [e3, g, List.map_append, List.map_map]
    refine entryRanges_append f2 ?_
    by_cases hb : kind = b!"bf"
    · rw [hn.2 hb] at e2
      cases e2
      rw [if_pos hb]
      rfl
    · obtain ⟨ns', f3, f4⟩ := char_numbers hb (char_rows_ok hok kind)
      rw [e2] at f3; injection f3 with f3; subst f3
      rw [f4, if_neg hb, List.map_map]
      rfl
  have hmem : ∀ x, x ∈ codesList (qs.map fun p => ⟨p.1.length, hexValue p.1, hexValue p.2⟩) ↔ UpHex x ∧ lookup kind bs x ≠ none := by
    intro x
    rw [codesList_mem qs hqs x, lookup_some, g]
    refine and_congr_right fun hx => ?_
    constructor
    · rintro ⟨p, hp, hi⟩
      rcases List.mem_append.mp hp with hp | hp
      · obtain ⟨r, hr, rfl⟩ := List.mem_map.mp hp
        exact .inl ⟨r, hr, hi⟩
      · split at hp
        · cases hp
        · obtain ⟨q, hq, rfl⟩ := List.mem_map.mp hp
          exact .inr ⟨q, hq, hexValue_inj hx (char_rows_ok hok kind q hq).2.1 hi.1 (Nat.le_antisymm hi.2.2 hi.2.1)⟩
    · rintro (⟨r, hr, hi⟩ | ⟨p, hp, rfl⟩)
      · exact ⟨_, List.mem_append_left _ (List.mem_map_of_mem hr), hi⟩
      · refine ⟨(p.1, p.1), List.mem_append_right _ ?_, rfl, Nat.le_refl _, Nat.le_refl _⟩
        rw [if_neg fun hb => by rw [hn.2 hb] at hp; cases hp]
        exact List.mem_map_of_mem hp
  have hcode : ∀ x, x ∈ codesList (qs.map fun p => ⟨p.1.length, hexValue p.1, hexValue p.2⟩) → CodeOk x := by
    intro x hx
    obtain ⟨h1, p, hp, h2⟩ := (codesList_mem qs hqs x).mp hx
    refine ⟨?_, h1⟩
    rintro rfl
    exact (hqs p hp).1.1 (List.eq_nil_of_length_eq_zero h2.1.symm)
  obtain ⟨ps, p1, p2, p3⟩ := mapPairs_ok (ms := c.mapping kind) (m := lookup kind bs) (codesList (qs.map fun p => ⟨p.1.length, hexValue p.1, hexValue p.2⟩))
    fun x hx => ⟨mapping_get hok h hc hk (hcode x hx), ((hmem x).mp hx).2⟩
  have hl : mapList (c.mapping kind) = .ok (codesList (qs.map fun p => ⟨p.1.length, hexValue p.1, hexValue p.2⟩)) := by
    unfold mapList
    rw [hent]
    rfl
  refine ⟨c, hc, _, ps, hl, ?_, sort_sorted _, hmem, p2, p3⟩
  unfold mapDict
  rw [hl]
  exact p1

/-- C132 is false of all other mappings: their `as_list`, `as_dict` and `len` fail with AttributeError. -/
theorem C132_texts_counterexample (n : Nat) (bs : List Block) (t : Bytes) (hok : ∀ b ∈ bs, b.Ok) (h : CMapText n bs t) (kind : Bytes) (hk : kind ∈ kinds) (hn : ¬ NumbersOnly kind bs) :
    ∃ c, cmapP t = .ok c ∧ mapList (c.mapping kind) = .error .attributeError ∧ mapDict (c.mapping kind) = .error .attributeError := by
  obtain ⟨c, hc, _⟩ := C35_cmap n bs t hok h
  obtain ⟨ms, ns, e1, e2, e3⟩ := mapping_rows hok h hc hk
  obtain ⟨a, b, hm⟩ : ∃ a b, MapEntry.char a b ∈ c.mapping kind := by
    rw [e3]
    by_cases hl : ∃ r ∈ rangeRows kind bs, ∃ ds, r.dst = .list ds
    · obtain ⟨r, hr, ds, hd⟩ := hl
      obtain ⟨ys, hy⟩ := (rowsRes_ok e1).1 r hr
      obtain ⟨o1, o2, o3, o4, o5, o6⟩ := range_rows_ok hok kind r hr
      have hy' := hy
      unfold rangeRes rowEntries at hy'
      rw [hd] at hy' o6
      dsimp only [Dst.obj] at hy'
      rw [mkRange_ok o1 o2 o3 o4 o5] at hy'
      dsimp only at hy' o6
      cases ds with
      | nil => exact absurd o6.1 (by simp)
      | cons d ds =>
        rw [show hexValue r.hi + 1 - hexValue r.lo = (hexValue r.hi - hexValue r.lo) + 1 by omega, List.map_cons, charsFrom] at hy'
        dsimp only [mkChar] at hy'
        cases hz : charsFrom r.lo.length (hexValue r.hi - hexValue r.lo) (hexValue r.lo + 1) (ds.map .hex) with
        | error x => rw [hz] at hy'; cases hy'
        | ok zs =>
          rw [hz] at hy'
          injection hy' with hy'
          subst hy'
          exact ⟨_, _, List.mem_append_left _ (((rowsRes_ok e1).2 _).mpr ⟨r, hr, _, hy, List.mem_cons_self⟩)⟩
    · by_cases hb : kind = b!"bf" ∧ charRows kind bs ≠ []
      · obtain ⟨hb, hne⟩ := hb
        obtain ⟨p, hp⟩ := List.exists_mem_of_ne_nil _ hne
        have : charRes kind p = .ok [.char (p.1.map upperAscii) (p.2.map upperAscii)] := by
          subst hb
          rfl
        exact ⟨_, _, List.mem_append_right _ (((rowsRes_ok e2).2 _).mpr ⟨p, hp, _, this, List.mem_cons_self⟩)⟩
      · refine absurd ⟨fun r hr ds hd => hl ⟨r, hr, ds, hd⟩, fun h => ?_⟩ hn
        exact Classical.byContradiction fun hne => hb ⟨h, hne⟩
  have : mapList (c.mapping kind) = .error .attributeError := by
    unfold mapList
    rw [entryRanges_char hm]
    rfl
  refine ⟨c, hc, this, ?_⟩
  unfold mapDict
  rw [this]

/-- The hypotheses are met: the CMap of C35 has a `bfchar` row, and no `cid` mappings. -/
example : ∃ c, cmapP exText = .ok c ∧ mapDict c.bf = .error .attributeError := by
  obtain ⟨c, h1, _, h2⟩ := C132_texts_counterexample 9 exBlocks exText exOk exCMap b!"bf" (by decide) (fun h => absurd (h.2 rfl) (by decide))
  exact ⟨c, h1, h2⟩

example : ∃ c, cmapP exText = .ok c ∧ (∀ x, x ∈ codesList c.codespace ↔ UpHex x ∧ InRange b!"0000" b!"FFFF" x) ∧ codesMax c.codespace = .ok 65535 := by
  obtain ⟨c, h1, _, h2, _, h4, _⟩ := C132_codespace 9 exBlocks exText exOk exCMap
  obtain ⟨m, h5, ⟨p, hp, rfl⟩, _⟩ := h4 (by decide)
  have e : codespaceRows exBlocks = [(b!"0000", b!"FFFF")] := by decide
  rw [e] at hp
  rw [List.mem_singleton.mp hp] at h5
  refine ⟨c, h1, fun x => ?_, h5⟩
  rw [h2 x, e]
  simp

/-- A `cid` mapping with a range and a single code. -/
def cidBlocks : List Block := [.ranges b!"cid" [⟨b!"02", b!"03", .num 7⟩], .chars b!"cid" [(b!"0001", b!"41")]]

def cidText : Bytes := b!" /CIDInit /ProcSet findresource begin 9 dict begin begincmap begincidrange <02> <03> 7 endcidrange begincidchar <0001> <41> endcidchar "

set_option maxRecDepth 20000 in
theorem cid_text : CMapText 9 cidBlocks cidText := by
  have h0 : ItemsText [] (32 :: []) := .nil _ exSep
  have h1 := exWord (w := b!"endcidchar") h0 (by decide) (by decide) (by decide)
  have h2 := exHex (d := b!"0001") (exHex (d := b!"41") h1 (by unfold UpHex; decide) (by decide)) (by unfold UpHex; decide) (by decide)
  have h3 := exWord (w := b!"begincidchar") h2 (by decide) (by decide) (by decide)
  have h4 := exWord (w := b!"endcidrange") h3 (by decide) (by decide) (by decide)
  have h5 := exHex (d := b!"02") (exHex (d := b!"03") (exInt (c := 55) h4 (by decide)) (by unfold UpHex; decide) (by decide)) (by unfold UpHex; decide) (by decide)
  have h11 := exWord (w := b!"begincidrange") h5 (by decide) (by decide) (by decide)
  have h12 := exWord (w := b!"dict") (exWord (w := b!"begin") (exWord (w := b!"begincmap") h11 (by decide) (by decide) (by decide))
    (by decide) (by decide) (by decide)) (by decide) (by decide) (by decide)
  have h13 := exWord (w := b!"findresource") (exWord (w := b!"begin") (exInt (c := 57) h12 (by decide)) (by decide) (by decide) (by decide))
    (by decide) (by decide) (by decide)
  exact exName (n := b!"CIDInit") (exName (n := b!"ProcSet") h13 (by decide) (by decide)) (by decide) (by decide)

theorem cid_ok : ∀ b ∈ cidBlocks, b.Ok := by
  intro b hb
  simp only [cidBlocks, List.mem_cons, List.not_mem_nil, or_false] at hb
  rcases hb with rfl | rfl <;> simp [Block.Ok, RangeRow.Ok, CharOk, UpHex, kinds, hexValue, hexVal?]

theorem cid_numbers : NumbersOnly b!"cid" cidBlocks := by
  refine ⟨fun r hr ds h => ?_, fun h => absurd h (by decide)⟩
  simp only [cidBlocks, rangeRows, List.flatMap_cons, List.flatMap_nil, List.append_nil, if_pos, List.mem_singleton] at hr
  subst hr
  cases h

/-- What it gives: three codes, with their texts. -/
example : (cmapP cidText).map (fun c => (mapList c.cid, mapDict c.cid)) =
    .ok (.ok [b!"0001", b!"02", b!"03"], .ok [(b!"0001", [0x41]), (b!"02", [7]), (b!"03", [8])]) := by decide +kernel

example : ∃ c, cmapP cidText = .ok c ∧ ∃ codes dict, mapList c.cid = .ok codes ∧ mapDict c.cid = .ok dict ∧ codes.Pairwise (· < ·) ∧ dict.map (·.1) = codes := by
  obtain ⟨c, h1, codes, dict, h2, h3, h4, _, h6, _⟩ := C132_mapping_partial 9 cidBlocks cidText cid_ok cid_text b!"cid" (by decide) cid_numbers
  exact ⟨c, h1, codes, dict, h2, h3, h4, h6⟩

end PdfReader
