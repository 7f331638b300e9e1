/-
  Lines of a fax: what the decoder does with coded lines, and the width of what it produces in any case.
-/
import Verif.Lemmas.Fax

namespace PdfReader
open Spec

/-- A line in progress: the pixels before the position are those of `row`. -/
structure InLine (s : Fax) (ref row : List Bool) (a0 : Int) (c : Bool) : Prop where
  width : s.width = row.length
  refline : s.refline = ref
  reflen : ref.length = row.length
  wait : s.wait = .mode modeTree
  curpos : s.curpos = a0
  color : s.color = c
  low : -1 ≤ a0
  curlen : s.curline.length = row.length
  same : ∀ i : Nat, (i : Int) < a0 → s.curline[i]? = row[i]?

/-- The state after a line. -/
structure LineDone (s s' : Fax) (row : List Bool) : Prop where
  width : s'.width = s.width
  bytealign : s'.bytealign = s.bytealign
  reversed : s'.reversed = s.reversed
  wait : s'.wait = .mode modeTree
  refline : s'.refline = row
  curline : s'.curline = List.replicate s.width true
  curpos : s'.curpos = -1
  color : s'.color = true
  buf : s'.buf = s.buf ++ outputLine s.reversed row

/-- The bits after a line. -/
def afterLine (align : Bool) (rest : List Bool) : List Bool := if align then rest.drop (rest.length % 8) else rest

/-- A step to a place inside the line goes on with the next mode; a step to its end puts it out. -/
theorem finish_in (s : Fax) (h : s.curpos < s.width) : Fax.finish (s, .go) = ({ s with wait := .mode modeTree }, .go) := by
  unfold Fax.finish Fax.flush
  dsimp only
  rw [if_neg (by omega)]

theorem finish_end (s : Fax) (row : List Bool) (hw : s.width = row.length) (hl : s.curline.length = row.length) (hp : s.curpos = row.length)
    (hs : ∀ i : Nat, (i : Int) < row.length → s.curline[i]? = row[i]?) (rest : List Bool) :
    ∃ s', Fax.next Fax.run (Fax.finish (s, .go)) rest = Fax.run s' (afterLine s.bytealign rest) ∧ LineDone s s' row := by
  have hcur : s.curline = row := by
    apply List.ext_getElem?
    intro i
    rcases Nat.lt_or_ge i row.length with h | h
    · exact hs i (by omega)
    · rw [List.getElem?_eq_none (by omega), List.getElem?_eq_none h]
  unfold Fax.finish Fax.flush
  dsimp only
  rw [if_pos (by omega)]
  dsimp only
  refine ⟨{ s with buf := s.buf ++ outputLine s.reversed s.curline, refline := s.curline, curline := List.replicate s.width true, curpos := -1, color := true, wait := .mode modeTree }, ?_, ?_⟩
  · unfold afterLine
    cases s.bytealign <;> rfl
  · constructor <;> first | rfl | exact hcur | (dsimp only; rw [hcur])

theorem bool_of_ne {a c : Bool} (h : a ≠ c) : a = !c := by cases a <;> cases c <;> simp_all

/-- A run of pixels up to its end. -/
theorem runEnd_same (row : List Bool) (a e : Nat) (c : Bool) (h : RunEnd row a c e) : ∀ i, a ≤ i → i < e → row[i]? = some c := by
  intro i h1 h2
  exact Classical.byContradiction fun hx => h.2.2.2 i h1 h2 hx

theorem coded_end (ref row : List Bool) (a0 : Int) (c : Bool) (bits : List Bool) (h : Coded ref row a0 c bits) (ha : a0 = row.length) : bits = [] := by
  cases h <;> first | rfl | omega

theorem coded_line (ref row : List Bool) (a0 : Int) (c : Bool) (bits : List Bool) (h : Coded ref row a0 c bits) (hpos : 0 < row.length) :
    ∀ (s : Fax) (rest : List Bool), InLine s ref row a0 c → a0 < row.length →
      ∃ s', Fax.run s (bits ++ rest) = Fax.run s' (afterLine s.bytealign rest) ∧ LineDone s s' row := by
  induction h with
  | done c => intro s rest _ h; omega
  | pass a0 c b1 b2 bits hlt h1 h2 hsame hcoded ih =>
    intro s rest hin _
    have hb2 : b2 ≤ row.length := by have := h2.2.1; rw [hin.reflen] at this; exact this
    have hb1 : b1 ≤ b2 ∧ (a0 + 1).toNat ≤ b1 := ⟨by have := h2.1; have := h1.2.1; have := h2.2.1; omega, h1.1⟩
    have hrl : 0 < ref.length := by rw [hin.reflen]; exact hpos
    obtain ⟨x, e⟩ := run_mode _ s _ _ (bits ++ rest) hin.wait pass_code
    rw [List.append_assoc, e]
    unfold Fax.onMode
    dsimp only
    unfold Fax.passMode
    dsimp only
    rw [hin.refline, hin.color, hin.curpos, seek_b1 ref c a0 b1 hrl h1]
    dsimp only
    rw [seek_b2 ref c a0 b1 b2 hrl h1 h2]
    dsimp only
    obtain ⟨l, el, hl, hi⟩ : ∃ l, fillPixels s.curline a0 c ((b2 : Int) - a0).toNat = some l ∧ l.length = row.length ∧ ∀ i : Nat, i < b2 → l[i]? = row[i]? := by
      by_cases hneg : a0 = -1
      · subst hneg
        have hn : ((b2 : Int) - -1).toNat = b2 + 1 := by omega
        rw [hn]
        unfold fillPixels putPixel
        rw [if_neg (by omega), if_pos (by rw [hin.curlen]; omega)]
        dsimp only
        obtain ⟨l, e, hl, hi⟩ := fill_pixels c b2 (s.curline.set ((s.curline.length : Int) + -1).toNat c) 0 (by rw [List.length_set, hin.curlen]; omega)
        refine ⟨l, e, by rw [hl, List.length_set, hin.curlen], ?_⟩
        intro i hib
        rw [hi, if_pos (by omega), hsame i (by omega) hib]
      · obtain ⟨a, rfl⟩ : ∃ a : Nat, a0 = a := ⟨a0.toNat, by have := hin.low; omega⟩
        have hab : a ≤ b2 := by omega
        obtain ⟨l, e, hl, hi⟩ := fill_pixels c (b2 - a) s.curline a (by rw [hin.curlen]; omega)
        refine ⟨l, by rw [show ((b2 : Int) - a).toNat = b2 - a by omega]; exact e, by rw [hl, hin.curlen], ?_⟩
        intro i hib
        rw [hi]
        by_cases hia : a ≤ i
        · rw [if_pos (by omega), hsame i (by omega) hib]
        · rw [if_neg (by omega)]
          exact hin.same i (by omega)
    rw [el]
    dsimp only
    by_cases hend : b2 = row.length
    · have hnil := coded_end _ _ _ _ _ hcoded (by omega)
      subst hnil
      obtain ⟨s', e', hd⟩ := finish_end { s with wait := x, refline := ref, curline := l, curpos := (b2 : Int), color := c } row hin.width hl (by dsimp only; omega) (fun i hi' => hi i (by omega)) rest
      refine ⟨s', ?_, ?_⟩
      · rw [List.nil_append]
        exact e'
      · exact ⟨hd.width, hd.bytealign, hd.reversed, hd.wait, hd.refline, hd.curline, hd.curpos, hd.color, hd.buf⟩
    · rw [finish_in _ (by dsimp only; rw [hin.width]; omega)]
      dsimp only [Fax.next]
      obtain ⟨s', e', hd⟩ := ih { s with refline := ref, curline := l, curpos := (b2 : Int), color := c, wait := .mode modeTree } rest
        ⟨hin.width, rfl, hin.reflen, rfl, rfl, rfl, by omega, hl, fun i hi' => hi i (by omega)⟩ (by omega)
      exact ⟨s', e', ⟨hd.width, hd.bytealign, hd.reversed, hd.wait, hd.refline, hd.curline, hd.curpos, hd.color, hd.buf⟩⟩
  | vertical a0 c b1 a1 code bits hlt h1 h2 hcode hcoded ih =>
    intro s rest hin _
    have ha1 : a1 ≤ row.length := h2.2.1
    have ha01 : a0.toNat ≤ a1 := h2.1
    have hrl : 0 < ref.length := by rw [hin.reflen]; exact hpos
    obtain ⟨x, e⟩ := run_mode _ s _ _ (bits ++ rest) hin.wait (vertical_code _ hcode)
    rw [List.append_assoc, e]
    unfold Fax.onMode
    dsimp only
    unfold Fax.vertical
    dsimp only
    rw [hin.refline, hin.color, hin.curpos, seek_b1 ref c a0 b1 hrl h1]
    dsimp only
    have hx1 : max 0 (min (s.width : Int) ((b1 : Int) + ((a1 : Int) - b1))) = a1 := by rw [hin.width]; omega
    have hx0 : max 0 a0 = (a0.toNat : Int) := by omega
    rw [hx1, hx0, if_neg (by omega)]
    obtain ⟨l, el, hl, hi⟩ : ∃ l, fillPixels s.curline (a0.toNat : Int) c ((a1 : Int) - (a0.toNat : Int)).toNat = some l ∧ l.length = row.length ∧ ∀ i : Nat, i < a1 → l[i]? = row[i]? := by
      obtain ⟨l, e, hl, hi⟩ := fill_pixels c (a1 - a0.toNat) s.curline a0.toNat (by rw [hin.curlen]; omega)
      refine ⟨l, by rw [show ((a1 : Int) - (a0.toNat : Int)).toNat = a1 - a0.toNat by omega]; exact e, by rw [hl, hin.curlen], ?_⟩
      intro i hib
      rw [hi]
      by_cases hia : a0.toNat ≤ i
      · rw [if_pos (by omega), runEnd_same row _ _ c h2 i hia hib]
      · rw [if_neg (by omega)]
        exact hin.same i (by omega)
    rw [el]
    dsimp only
    by_cases hend : a1 = row.length
    · have hnil := coded_end _ _ _ _ _ hcoded (by omega)
      subst hnil
      obtain ⟨s', e', hd⟩ := finish_end { s with wait := x, refline := ref, curline := l, curpos := (a1 : Int), color := !c } row hin.width hl (by dsimp only; omega) (fun i hi' => hi i (by omega)) rest
      refine ⟨s', ?_, ?_⟩
      · rw [List.nil_append]
        exact e'
      · exact ⟨hd.width, hd.bytealign, hd.reversed, hd.wait, hd.refline, hd.curline, hd.curpos, hd.color, hd.buf⟩
    · rw [finish_in _ (by dsimp only; rw [hin.width]; omega)]
      dsimp only [Fax.next]
      obtain ⟨s', e', hd⟩ := ih { s with refline := ref, curline := l, curpos := (a1 : Int), color := !c, wait := .mode modeTree } rest
        ⟨hin.width, rfl, hin.reflen, rfl, rfl, rfl, by omega, hl, fun i hi' => hi i (by omega)⟩ (by omega)
      exact ⟨s', e', ⟨hd.width, hd.bytealign, hd.reversed, hd.wait, hd.refline, hd.curline, hd.curpos, hd.color, hd.buf⟩⟩
  | horizontal a0 c a1 a2 r1 r2 bits hlt h1 h2 hr1 hr2 hcoded ih =>
    intro s rest hin _
    have ha1 : a1 ≤ row.length := h1.2.1
    have ha01 : a0.toNat ≤ a1 := h1.1
    have ha2 : a2 ≤ row.length := h2.2.1
    have ha12 : a1 ≤ a2 := h2.1
    obtain ⟨x, e⟩ := run_mode _ s _ _ (r1 ++ (r2 ++ (bits ++ rest))) hin.wait horizontal_code
    rw [List.append_assoc, List.append_assoc, List.append_assoc, e]
    unfold Fax.onMode
    dsimp only [Fax.next]
    rw [run_first c _ r1 hr1 { s with n1 := 0, wait := .horiz1 (runTree s.color) } _ (by dsimp only; rw [hin.color]) hin.color]
    dsimp only
    rw [run_second (!c) _ r2 hr2 { s with n1 := 0 + (a1 - a0.toNat), n2 := 0, color := !c, wait := .horiz2 (runTree (!c)) } _ rfl rfl]
    dsimp only
    unfold Fax.horizontal
    dsimp only
    have hx0 : (max 0 s.curpos).toNat = a0.toNat := by rw [hin.curpos]; omega
    rw [hx0, Bool.not_not]
    obtain ⟨l1, e1, hl1, hi1⟩ := run_pixels c (0 + (a1 - a0.toNat)) s.curline a0.toNat (by rw [hin.curlen]; omega)
    rw [e1]
    dsimp only
    obtain ⟨l, e2, hl2, hi2⟩ := run_pixels (!c) (0 + (a2 - a1)) l1 (a0.toNat + (0 + (a1 - a0.toNat))) (by rw [hl1, hin.curlen]; omega)
    rw [e2]
    dsimp only
    have hpos2 : a0.toNat + (0 + (a1 - a0.toNat)) + (0 + (a2 - a1)) = a2 := by omega
    rw [hpos2]
    have hl : l.length = row.length := by rw [hl2, hl1, hin.curlen]
    have hi : ∀ i : Nat, i < a2 → l[i]? = row[i]? := by
      intro i hib
      rw [hi2]
      by_cases hi1' : a1 ≤ i
      · rw [if_pos (by omega), runEnd_same row _ _ (!c) h2 i hi1' hib]
      · rw [if_neg (by omega), hi1]
        by_cases hia : a0.toNat ≤ i
        · rw [if_pos (by omega), runEnd_same row _ _ c h1 i hia (by omega)]
        · rw [if_neg (by omega)]
          exact hin.same i (by omega)
    by_cases hend : a2 = row.length
    · have hnil := coded_end _ _ _ _ _ hcoded (by omega)
      subst hnil
      obtain ⟨s'', e'', hd''⟩ := finish_end
        { s with wait := .horiz2 (runTree (!c)), curline := l, curpos := (a2 : Int), color := c, n1 := 0 + (a1 - a0.toNat), n2 := 0 + (a2 - a1) } row hin.width hl (by dsimp only; omega) (fun i hi' => hi i (by omega)) rest
      refine ⟨s'', ?_, ?_⟩
      · rw [List.nil_append]
        exact e''
      · exact ⟨hd''.width, hd''.bytealign, hd''.reversed, hd''.wait, hd''.refline, hd''.curline, hd''.curpos, hd''.color, hd''.buf⟩
    · rw [finish_in _ (by dsimp only; rw [hin.width]; omega)]
      dsimp only
      obtain ⟨s', e', hd⟩ := ih { s with curline := l, curpos := (a2 : Int), color := c, n1 := 0 + (a1 - a0.toNat), n2 := 0 + (a2 - a1), wait := .mode modeTree } rest
        ⟨hin.width, hin.refline, hin.reflen, rfl, rfl, rfl, by omega, hl, fun i hi' => hi i (by omega)⟩ (by omega)
      exact ⟨s', e', ⟨hd.width, hd.bytealign, hd.reversed, hd.wait, hd.refline, hd.curline, hd.curpos, hd.color, hd.buf⟩⟩

/-! ### Images -/

theorem fill_drop (fill rest : List Bool) (h : fill.length < 8) (hr : 8 ∣ rest.length) : (fill ++ rest).drop ((fill ++ rest).length % 8) = rest := by
  obtain ⟨k, hk⟩ := hr
  rw [show (fill ++ rest).length % 8 = fill.length by rw [List.length_append, hk]; omega, List.drop_left]

theorem lines_dvd (w : Nat) (ref : List Bool) (rows : List (List Bool)) (bits : List Bool) (h : Lines w true ref rows bits) : 8 ∣ bits.length := by
  induction h with
  | nil ref => exact ⟨0, rfl⟩
  | cons ref row rows code fill rest _ _ hf _ ih =>
    obtain ⟨k, hk⟩ := ih
    obtain ⟨j, hj⟩ := hf.2
    refine ⟨j + k, ?_⟩
    simp only [List.length_append] at hj ⊢
    omega

/-- The state at the start of a line. -/
structure AtStart (s : Fax) (w : Nat) (align : Bool) (ref : List Bool) : Prop where
  width : s.width = w
  bytealign : s.bytealign = align
  refline : s.refline = ref
  reflen : ref.length = w
  wait : s.wait = .mode modeTree
  curline : s.curline = List.replicate w true
  curpos : s.curpos = -1
  color : s.color = true

theorem lines_run (w : Nat) (hw : 0 < w) (align : Bool) (ref : List Bool) (rows : List (List Bool)) (bits : List Bool) (h : Lines w align ref rows bits) :
    ∀ (s : Fax) (rest : List Bool), AtStart s w align ref → (align = true → 8 ∣ rest.length) →
      ∃ s', Fax.run s (bits ++ rest) = Fax.run s' rest ∧ s'.wait = .mode modeTree ∧ s'.buf = s.buf ++ rows.flatMap (outputLine s.reversed) := by
  induction h with
  | nil ref => intro s rest hs _; exact ⟨s, rfl, hs.wait, by simp⟩
  | cons ref row rows code fill bits hlen hcoded hfill hlines ih =>
    intro s rest hs hr
    have hin : InLine s ref row (-1) true :=
      ⟨by rw [hs.width, hlen], hs.refline, by rw [hs.reflen, hlen], hs.wait, hs.curpos, hs.color, by omega, by rw [hs.curline, List.length_replicate, hlen], fun i hi => by omega⟩
    obtain ⟨s1, e1, hd⟩ := coded_line ref row (-1) true code hcoded (by omega) s (fill ++ (bits ++ rest)) hin (by omega)
    have hafter : afterLine s.bytealign (fill ++ (bits ++ rest)) = bits ++ rest := by
      rw [hs.bytealign]
      unfold afterLine
      cases align with
      | false =>
        rw [if_neg (by simp), show fill = [] from hfill]
        rfl
      | true =>
        rw [if_pos rfl]
        obtain ⟨k, hk⟩ := hr rfl
        obtain ⟨j, hj⟩ := lines_dvd _ _ _ _ hlines
        exact fill_drop fill _ hfill.1 ⟨j + k, by rw [List.length_append]; omega⟩
    rw [hafter] at e1
    obtain ⟨s2, e2, hw2, hb2⟩ := ih s1 rest ⟨by rw [hd.width, hs.width], by rw [hd.bytealign, hs.bytealign], hd.refline, hlen, hd.wait, by rw [hd.curline, hs.width], hd.curpos, hd.color⟩ hr
    refine ⟨s2, ?_, hw2, ?_⟩
    · rw [List.append_assoc, List.append_assoc, e1, e2]
    · rw [hb2, hd.buf, hd.reversed, List.flatMap_cons, List.append_assoc]

/-- Paths which stay inside a tree. -/
def FaxTree.within {α : Type} : FaxTree α → List Bool → Bool
  | _, [] => true
  | .leaf _, _ :: _ => false
  | .node zero one, b :: bs =>
    match (if b then one else zero) with
    | .leaf _ => false
    | .node z o => FaxTree.within (.node z o) bs

theorem run_within (bits : List Bool) : ∀ (s : Fax) (t : FaxTree FaxMode), s.wait = .mode t → t.within bits = true → ∃ x, s.run bits = ({ s with wait := x }, .go) := by
  induction bits with
  | nil => intro s t _ _; exact ⟨s.wait, by rw [run_nil]⟩
  | cons b bs ih =>
    intro s t hw h
    cases t with
    | leaf v => simp [FaxTree.within] at h
    | node zero one =>
      rw [run_cons]
      unfold Fax.bit
      rw [hw]
      dsimp only [FaxTree.branch]
      unfold FaxTree.within at h
      generalize (if b = true then one else zero) = q at h ⊢
      cases q with
      | leaf v => simp at h
      | node z o => exact ih { s with wait := .mode (.node z o) } (.node z o) rfl h

theorem zeros_within : ∀ n : Fin 8, modeTree.within (List.replicate n.val false) = true := by decide +kernel

theorem run_end (s : Fax) (rest : List Bool) (hw : s.wait = .mode modeTree) (h : (∃ more, rest = eofb ++ more) ∨ (rest.length < 8 ∧ ∀ b ∈ rest, b = false)) :
    ∃ s', s.run rest = (s', .go) ∧ s'.buf = s.buf := by
  rcases h with ⟨more, rfl⟩ | ⟨hl, hz⟩
  · obtain ⟨x, e⟩ := run_mode eofb s _ _ more hw eofb_code
    exact ⟨_, e, rfl⟩
  · have hrep : rest = List.replicate rest.length false := List.eq_replicate_iff.mpr ⟨rfl, hz⟩
    obtain ⟨x, e⟩ := run_within rest s _ hw (by rw [hrep]; exact zeros_within ⟨rest.length, hl⟩)
    exact ⟨_, e, rfl⟩

theorem packByte_eight : ∀ a b c d e f g h : Bool, byteMasks (packByte [a, b, c, d, e, f, g, h]) = [a, b, c, d, e, f, g, h] := by decide +kernel

theorem packByte_fill (l : List Bool) (h : l.length ≤ 8) : byteMasks (packByte l) = l ++ List.replicate (8 - l.length) false := by
  match l, h with
  | [], _ => decide
  | [a], _ => exact packByte_eight a false false false false false false false
  | [a, b], _ => exact packByte_eight a b false false false false false false
  | [a, b, c], _ => exact packByte_eight a b c false false false false false
  | [a, b, c, d], _ => exact packByte_eight a b c d false false false false
  | [a, b, c, d, e], _ => exact packByte_eight a b c d e false false false
  | [a, b, c, d, e, f], _ => exact packByte_eight a b c d e f false false
  | [a, b, c, d, e, f, g], _ => exact packByte_eight a b c d e f g false
  | [a, b, c, d, e, f, g, i], _ => exact packByte_eight a b c d e f g i
  | _ :: _ :: _ :: _ :: _ :: _ :: _ :: _ :: _ :: _, h => simp at h

theorem packBits_bits : ∀ (n : Nat) (bits : List Bool), bits.length ≤ 8 * n → dataBits (packBits n bits) = bits ++ List.replicate (8 * n - bits.length) false := by
  intro n
  induction n with
  | zero =>
    intro bits h
    have : bits = [] := List.length_eq_zero_iff.mp (by omega)
    subst this
    rfl
  | succ n ih =>
    intro bits h
    unfold packBits
    rw [dataBits_cons, packByte_fill _ (by rw [List.length_take]; omega), ih _ (by rw [List.length_drop]; omega)]
    rcases Nat.lt_or_ge bits.length 8 with hl | hl
    · rw [List.take_of_length_le (by omega), List.drop_eq_nil_of_le (by omega), List.append_assoc, List.nil_append, List.replicate_append_replicate]
      congr 2
      simp only [List.length_nil]
      omega
    · rw [List.length_take, List.length_drop, show 8 - min 8 bits.length = 0 by omega, List.replicate_zero, List.append_nil, ← List.append_assoc, List.take_append_drop]
      congr 2
      omega

theorem outputLine_bits (rev : Bool) (row : List Bool) :
    dataBits (outputLine rev row) = (if rev then row.map (!·) else row) ++ List.replicate ((8 - row.length % 8) % 8) false := by
  unfold outputLine
  have hl : (if rev then row.map (!·) else row).length = row.length := by cases rev <;> simp
  rw [packBits_bits _ _ (by rw [hl]; omega), hl]
  congr 2
  omega

theorem outputLines_bits (rev : Bool) (rows : List (List Bool)) : ImageBits rev rows (dataBits (rows.flatMap (outputLine rev))) := by
  unfold ImageBits
  induction rows with
  | nil => rfl
  | cons row rows ih => rw [List.flatMap_cons, List.flatMap_cons, dataBits_append, ih, outputLine_bits]

/-! ### Any data -/

theorem seek_some (ref : List Bool) (c : Bool) (hl : 0 < ref.length) : ∀ (k x : Nat), ref.length - x = k → x ≤ ref.length →
    ∃ b, seekChange ref c x = some b ∧ x ≤ b ∧ b ≤ ref.length := by
  intro k
  induction k with
  | zero =>
    intro x hk hx
    rw [seekChange_eq]
    rw [if_neg (by omega), if_neg (by omega), if_pos (by omega)]
    exact ⟨x, rfl, Nat.le_refl x, hx⟩
  | succ k ih =>
    intro x hk hx
    obtain ⟨b, e, h1, h2⟩ := ih (x + 1) (by omega) (by omega)
    have hstep : ∃ b, seekChange ref c (x + 1) = some b ∧ x ≤ b ∧ b ≤ ref.length := ⟨b, e, by omega, h2⟩
    rw [seekChange_eq]
    rw [if_neg (by omega)]
    by_cases h0 : x = 0
    · rw [if_pos h0]
      subst h0
      by_cases hc : c = true
      · rw [if_pos hc]
        cases href : ref.head? with
        | none => rw [List.head?_eq_none_iff] at href; rw [href] at hl; simp at hl
        | some p =>
          dsimp only
          by_cases hp : p ≠ c
          · rw [if_pos hp]; exact ⟨0, rfl, Nat.le_refl 0, Nat.zero_le _⟩
          · rw [if_neg hp]; exact hstep
      · rw [if_neg hc]; exact hstep
    · rw [if_neg h0, if_neg (by omega)]
      split
      · exact ⟨x, rfl, Nat.le_refl x, hx⟩
      · exact hstep

/-- Lines have the width, and the position is in the line (`e = 0`) or just after it (`e = 1`). -/
structure Wide (w : Nat) (rev : Bool) (e : Int) (s : Fax) : Prop where
  width : s.width = w
  reversed : s.reversed = rev
  refline : s.refline.length = w
  curline : s.curline.length = w
  low : -1 ≤ s.curpos
  high : s.curpos < w + e
  buf : ∃ rows : List (List Bool), (∀ r ∈ rows, r.length = w) ∧ s.buf = rows.flatMap (outputLine rev)

theorem wide_flush (w : Nat) (rev : Bool) (s : Fax) (h : Wide w rev 1 s) : Wide w rev 0 s.flush.1 ∧ s.flush.2 ≠ .index := by
  unfold Fax.flush
  by_cases hw : (s.width : Int) ≤ s.curpos
  · rw [if_pos hw]
    obtain ⟨rows, hr, hb⟩ := h.buf
    refine ⟨⟨h.width, h.reversed, h.curline, by rw [List.length_replicate, h.width], by dsimp only; omega, by dsimp only; omega,
      rows ++ [s.curline], ?_, ?_⟩, by dsimp only; split <;> simp⟩
    · intro r hm
      rcases List.mem_append.mp hm with hm | hm
      · exact hr r hm
      · rw [List.mem_singleton.mp hm]; exact h.curline
    · dsimp only
      rw [hb, List.flatMap_append, h.reversed]
      simp
  · rw [if_neg hw]
    refine ⟨⟨h.width, h.reversed, h.refline, h.curline, h.low, ?_, h.buf⟩, by simp⟩
    have := h.width
    dsimp only
    omega

theorem wide_wait (w : Nat) (rev : Bool) (e : Int) (s : Fax) (x : FaxWait) (h : Wide w rev e s) : Wide w rev e { s with wait := x } :=
  ⟨h.width, h.reversed, h.refline, h.curline, h.low, h.high, h.buf⟩

theorem wide_finish (w : Nat) (rev : Bool) (r : Fax × FaxSignal) (h : Wide w rev 1 r.1) (hr : r.2 = .go) : Wide w rev 0 (Fax.finish r).1 ∧ (Fax.finish r).2 ≠ .index := by
  obtain ⟨s, e⟩ := r
  dsimp only at h hr
  subst hr
  obtain ⟨h1, h2⟩ := wide_flush w rev s h
  unfold Fax.finish
  dsimp only
  exact ⟨wide_wait w rev 0 _ _ h1, h2⟩

theorem wide_vertical (w : Nat) (hw : 0 < w) (rev : Bool) (s : Fax) (dx : Int) (h : Wide w rev 0 s) : Wide w rev 1 (s.vertical dx).1 ∧ (s.vertical dx).2 = .go := by
  unfold Fax.vertical
  have := h.low
  have := h.high
  obtain ⟨b, e, _, hb⟩ := seek_some s.refline s.color (by rw [h.refline]; exact hw) _ (s.curpos + 1).toNat rfl (by rw [h.refline]; omega)
  rw [e]
  dsimp only
  obtain ⟨x1, hx1⟩ : ∃ x1 : Nat, max 0 (min (s.width : Int) (b + dx)) = x1 := ⟨(max 0 (min (s.width : Int) (b + dx))).toNat, by omega⟩
  obtain ⟨x0, hx0⟩ : ∃ x0 : Nat, max 0 s.curpos = x0 := ⟨(max 0 s.curpos).toNat, by omega⟩
  have hx1w : x1 ≤ w := by have := h.width; omega
  have hx0w : x0 ≤ w := by omega
  rw [hx1, hx0]
  by_cases hlt : (x1 : Int) < x0
  · rw [if_pos hlt]
    obtain ⟨l, el, hl, _⟩ := fill_pixels s.color (x0 - x1) s.curline x1 (by rw [h.curline]; omega)
    rw [show ((x0 : Int) - x1).toNat = x0 - x1 by omega, el]
    exact ⟨⟨h.width, h.reversed, h.refline, by dsimp only; rw [hl, h.curline], by dsimp only; omega, by dsimp only; omega, h.buf⟩, rfl⟩
  · rw [if_neg hlt]
    obtain ⟨l, el, hl, _⟩ := fill_pixels s.color (x1 - x0) s.curline x0 (by rw [h.curline]; omega)
    rw [show ((x1 : Int) - x0).toNat = x1 - x0 by omega, el]
    exact ⟨⟨h.width, h.reversed, h.refline, by dsimp only; rw [hl, h.curline], by dsimp only; omega, by dsimp only; omega, h.buf⟩, rfl⟩

theorem wide_pass (w : Nat) (hw : 0 < w) (rev : Bool) (s : Fax) (h : Wide w rev 0 s) : Wide w rev 1 s.passMode.1 ∧ s.passMode.2 = .go := by
  unfold Fax.passMode
  have hlow := h.low
  have := h.high
  obtain ⟨b1, e1, hb0, hb1⟩ := seek_some s.refline s.color (by rw [h.refline]; exact hw) _ (s.curpos + 1).toNat rfl (by rw [h.refline]; omega)
  obtain ⟨b2, e2, hb12, hb2⟩ := seek_some s.refline (!s.color) (by rw [h.refline]; exact hw) _ b1 rfl hb1
  rw [e1]
  dsimp only
  rw [e2]
  dsimp only
  rw [h.refline] at hb2
  obtain ⟨l, el, hl⟩ : ∃ l, fillPixels s.curline s.curpos s.color ((b2 : Int) - s.curpos).toNat = some l ∧ l.length = w := by
    by_cases hneg : s.curpos = -1
    · rw [hneg, show ((b2 : Int) - -1).toNat = b2 + 1 by omega]
      unfold fillPixels putPixel
      rw [if_neg (by omega), if_pos (by rw [h.curline]; omega)]
      dsimp only
      obtain ⟨l, e, hl, _⟩ := fill_pixels s.color b2 (s.curline.set ((s.curline.length : Int) + -1).toNat s.color) 0 (by rw [List.length_set, h.curline]; omega)
      exact ⟨l, e, by rw [hl, List.length_set, h.curline]⟩
    · obtain ⟨a, ha⟩ : ∃ a : Nat, s.curpos = a := ⟨s.curpos.toNat, by omega⟩
      obtain ⟨l, e, hl, _⟩ := fill_pixels s.color (b2 - a) s.curline a (by rw [h.curline]; omega)
      exact ⟨l, by rw [ha, show ((b2 : Int) - a).toNat = b2 - a by omega]; exact e, by rw [hl, h.curline]⟩
  rw [el]
  exact ⟨⟨h.width, h.reversed, h.refline, hl, by dsimp only; omega, by dsimp only; omega, h.buf⟩, rfl⟩

theorem runPixels_wide (c : Bool) (w : Nat) : ∀ (n : Nat) (l : List Bool) (x : Nat), l.length = w → x ≤ w → (runPixels l x c n).1.length = w ∧ (runPixels l x c n).2 ≤ w := by
  intro n
  induction n with
  | zero => intro l x hl hx; exact ⟨hl, hx⟩
  | succ n ih =>
    intro l x hl hx
    unfold runPixels
    by_cases hlx : l.length ≤ x
    · rw [if_pos hlx]; exact ⟨hl, hx⟩
    · rw [if_neg hlx]; exact ih _ _ (by rw [List.length_set, hl]) (by omega)

theorem wide_horizontal (w : Nat) (rev : Bool) (s : Fax) (n1 n2 : Nat) (h : Wide w rev 0 s) : Wide w rev 1 (s.horizontal n1 n2) := by
  unfold Fax.horizontal
  have := h.high
  obtain ⟨l1, x1⟩ := runPixels_wide s.color w n1 s.curline (max 0 s.curpos).toNat h.curline (by omega)
  obtain ⟨l2, x2⟩ := runPixels_wide (!s.color) w n2 _ _ l1 x1
  exact ⟨h.width, h.reversed, h.refline, l2, by dsimp only; omega, by dsimp only; omega, h.buf⟩

theorem wide_raw (w : Nat) (rev : Bool) (bits : List Bool) : ∀ s : Fax, Wide w rev 0 s → 0 < w → Wide w rev 0 (s.raw bits).1 ∧ (s.raw bits).2 ≠ .index := by
  induction bits with
  | nil => intro s h _; exact ⟨h, by simp [Fax.raw]⟩
  | cons c cs ih =>
    intro s h hw
    have hlow := h.low
    have hhigh := h.high
    unfold Fax.raw
    obtain ⟨l, el, hl⟩ : ∃ l, putPixel s.curline s.curpos c = some l ∧ l.length = w := by
      unfold putPixel
      by_cases h0 : 0 ≤ s.curpos
      · rw [if_pos h0, if_pos (by rw [h.curline]; omega)]
        exact ⟨_, rfl, by rw [List.length_set, h.curline]⟩
      · rw [if_neg h0, if_pos (by rw [h.curline]; omega)]
        exact ⟨_, rfl, by rw [List.length_set, h.curline]⟩
    rw [el]
    dsimp only
    obtain ⟨h1, h2⟩ := wide_flush w rev { s with curline := l, curpos := s.curpos + 1 } ⟨h.width, h.reversed, h.refline, hl, by dsimp only; omega, by dsimp only; omega, h.buf⟩
    generalize Fax.flush { s with curline := l, curpos := s.curpos + 1 } = r at h1 h2 ⊢
    obtain ⟨s', e⟩ := r
    cases e with
    | go => exact ih s' h1 hw
    | skip => exact ⟨h1, h2⟩
    | eofb => exact ⟨h1, h2⟩
    | invalid => exact ⟨h1, h2⟩
    | index => exact ⟨h1, h2⟩

theorem wide_bit (w : Nat) (hw : 0 < w) (rev : Bool) (s : Fax) (b : Bool) (h : Wide w rev 0 s) : Wide w rev 0 (s.bit b).1 ∧ (s.bit b).2 ≠ .index := by
  unfold Fax.bit
  split
  · rename_i t ht
    split
    · rename_i v _
      unfold Fax.onMode
      split
      · obtain ⟨h1, h2⟩ := wide_pass w hw rev s h
        exact wide_finish w rev _ h1 h2
      · exact ⟨⟨h.width, h.reversed, h.refline, h.curline, h.low, h.high, h.buf⟩, by simp⟩
      · exact ⟨wide_wait w rev 0 _ _ h, by simp⟩
      · exact ⟨h, by simp⟩
      · obtain ⟨h1, h2⟩ := wide_vertical w hw rev s _ h
        exact wide_finish w rev _ h1 h2
      · exact ⟨h, by simp⟩
      · exact ⟨h, by simp⟩
    · exact ⟨wide_wait w rev 0 _ _ h, by simp⟩
  · split
    · unfold Fax.onHoriz1
      split
      · exact ⟨h, by simp⟩
      · split
        · exact ⟨⟨h.width, h.reversed, h.refline, h.curline, h.low, h.high, h.buf⟩, by simp⟩
        · exact ⟨⟨h.width, h.reversed, h.refline, h.curline, h.low, h.high, h.buf⟩, by simp⟩
    · exact ⟨wide_wait w rev 0 _ _ h, by simp⟩
  · split
    · unfold Fax.onHoriz2
      split
      · exact ⟨h, by simp⟩
      · split
        · exact wide_finish w rev _ (wide_horizontal w rev _ _ _ ⟨h.width, h.reversed, h.refline, h.curline, h.low, h.high, h.buf⟩) rfl
        · exact ⟨⟨h.width, h.reversed, h.refline, h.curline, h.low, h.high, h.buf⟩, by simp⟩
    · exact ⟨wide_wait w rev 0 _ _ h, by simp⟩
  · split
    · unfold Fax.onUncompressed
      split
      · exact ⟨h, by simp⟩
      · rename_i t bits _
        obtain ⟨h1, h2⟩ := wide_raw w rev bits { s with color := t } ⟨h.width, h.reversed, h.refline, h.curline, h.low, h.high, h.buf⟩ hw
        exact ⟨wide_wait w rev 0 _ _ h1, h2⟩
      · rename_i bits _
        obtain ⟨h1, h2⟩ := wide_raw w rev bits s h hw
        exact ⟨wide_wait w rev 0 _ _ h1, h2⟩
    · exact ⟨wide_wait w rev 0 _ _ h, by simp⟩

theorem wide_bitsOn (w : Nat) (hw : 0 < w) (rev : Bool) (bits : List Bool) : ∀ s : Fax, Wide w rev 0 s → Wide w rev 0 (s.bitsOn bits).1 ∧ (s.bitsOn bits).2 ≠ .index := by
  induction bits with
  | nil => intro s h; exact ⟨h, by simp [Fax.bitsOn]⟩
  | cons b bs ih =>
    intro s h
    obtain ⟨h1, h2⟩ := wide_bit w hw rev s b h
    unfold Fax.bitsOn
    generalize s.bit b = r at h1 h2 ⊢
    obtain ⟨s', e⟩ := r
    cases e with
    | go => exact ih s' h1
    | skip => exact ⟨h1, h2⟩
    | eofb => exact ⟨h1, h2⟩
    | invalid => exact ⟨h1, h2⟩
    | index => exact ⟨h1, h2⟩

theorem wide_feed (w : Nat) (hw : 0 < w) (rev : Bool) (data : Bytes) : ∀ s : Fax, Wide w rev 0 s → Wide w rev 0 (s.feed data).1 ∧ (s.feed data).2 ≠ .index := by
  induction data with
  | nil => intro s h; exact ⟨h, by simp [Fax.feed]⟩
  | cons b bs ih =>
    intro s h
    obtain ⟨h1, h2⟩ := wide_bitsOn w hw rev (byteMasks b) s h
    unfold Fax.feed
    generalize s.bitsOn (byteMasks b) = r at h1 h2 ⊢
    obtain ⟨s', e⟩ := r
    cases e with
    | go => exact ih s' h1
    | skip => exact ih _ (wide_wait w rev 0 _ _ h1)
    | eofb => exact ⟨h1, by simp⟩
    | invalid => exact ⟨h1, by simp⟩
    | index => exact absurd rfl h2

end PdfReader
