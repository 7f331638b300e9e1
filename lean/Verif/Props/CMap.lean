/-
  C35, C36, C61-C63: CMaps and decoding with them.
-/
import Verif.Lemmas.CMapDecode

namespace PdfReader

open Spec

/-! ### An example: tokens separated by blanks -/

theorem exSep : Sep [32] := .ws 32 [] (by simp [WS]) .nil

theorem exStop (u : Bytes) : Stop (32 :: u) := notStart_mk (fun h => absurd ((regular_iff 32).mp h) (by decide))

/-- A word after a blank. -/
theorem exWord {w : Bytes} {is : List Item} {u : Bytes} (h : ItemsText is (32 :: u)) (h0 : w ≠ []) (h1 : w.all isRegular = true)
    (h2 : ∀ c ∈ w.head?, isDigit c = false ∧ c ≠ 43 ∧ c ≠ 45 ∧ c ≠ 46 ∧ c ≠ 110 ∧ c ≠ 116 ∧ (c = 102 → w = b!"findresource")) :
    ItemsText (.word w :: is) (32 :: (w ++ 32 :: u)) := by
  refine .word [32] w is (32 :: u) exSep ⟨h0, ?_, ?_, ?_⟩ (exStop u) h
  · intro c hc
    exact (regular_iff c).mpr (List.all_eq_true.mp h1 c hc)
  · intro c r e
    obtain ⟨a, b1, b2, b3, _⟩ := h2 c (by rw [e]; rfl)
    rintro (h | h | h | h)
    · rw [(digit_iff c).mp h] at a; cases a
    · exact b1 h
    · exact b2 h
    · exact b3 h
  · cases w with
    | nil => exact absurd rfl h0
    | cons c r =>
      obtain ⟨_, _, _, _, b1, b2, b3⟩ := h2 c rfl
      by_cases hf : c = 102
      · rw [b3 hf]
        exact Or.inr ⟨by decide, by decide⟩
      · refine Or.inl (notStart_mk ?_)
        simp [b1, b2, hf]

theorem exHexText {d : Bytes} (h : UpHex d) : HexText d d := by
  induction d with
  | nil => exact .nil
  | cons c d ih =>
    have ih := ih (fun x hx => h x (List.mem_cons_of_mem _ hx))
    have hc := h c List.mem_cons_self
    have key : ∃ v, v < 16 ∧ (b!"0123456789ABCDEF")[v]? = some c := by
      obtain ⟨v, hv, e⟩ := List.getElem_of_mem hc
      exact ⟨v, hv, by rw [List.getElem?_eq_getElem hv, e]⟩
    obtain ⟨v, hv, e⟩ := key
    exact .digit v c c d d e (Or.inl e) ih

theorem exHex {d : Bytes} {is : List Item} {u : Bytes} (h : ItemsText is (32 :: u)) (h1 : UpHex d) (h2 : d.length % 2 = 0) :
    ItemsText (.obj (.hex d) :: is) (32 :: (60 :: (d ++ 62 :: 32 :: u))) := by
  have e : padHex d = d := by unfold padHex; rw [if_pos h2]
  have := Den.hex (refs := false) d d (exHexText h1)
  rw [e] at this
  have := ItemsText.obj [32] (.hex d) _ is (32 :: u) exSep this (fun _ => exStop u) (by rintro ⟨x, hx⟩; cases hx) h
  simpa using this

theorem exName {n : Bytes} {is : List Item} {u : Bytes} (h : ItemsText is (32 :: u)) (h1 : n.all isRegular = true) (h2 : 35 ∉ n) :
    ItemsText (.obj (.name n) :: is) (32 :: 47 :: (n ++ 32 :: u)) := by
  have hn : NameText n n := by
    induction n with
    | nil => exact .nil
    | cons c n ih =>
      rw [List.all_cons, Bool.and_eq_true] at h1
      exact .plain c n n ((regular_iff c).mpr h1.1) (fun e => h2 (by rw [e]; exact List.mem_cons_self)) (ih h1.2 (fun hm => h2 (List.mem_cons_of_mem _ hm)))
  exact .obj [32] (.name n) (47 :: n) is (32 :: u) exSep (.name n n hn) (fun _ => exStop u) (by rintro ⟨x, hx⟩; cases hx) h

theorem exInt {c : Byte} {is : List Item} {u : Bytes} (h : ItemsText is (32 :: u)) (h1 : isDigit c = true) :
    ItemsText (.obj (.int (decVal [c] : Nat)) :: is) (32 :: c :: 32 :: u) := by
  have hd : Den false (.obj (.int (decVal [c] : Nat))) [c] :=
    .int _ _ (.mk false [] [c] (Or.inl ⟨rfl, Or.inl rfl⟩) ⟨by simp, by simpa using (digit_iff c).mpr h1⟩)
  exact .obj [32] _ [c] is (32 :: u) exSep hd (fun _ => exStop u) (by rintro ⟨x, hx⟩; cases hx) h

/-- The blocks of the example: a range with one destination, a range with a list, and a single character. -/
def exBlocks : List Block :=
  [.item (.obj (.name b!"CMapName")), .item (.obj (.name b!"UCS")), .item (.word b!"def"),
   .item (.obj (.int 1)), .codespace [(b!"0000", b!"FFFF")],
   .item (.obj (.int 1)), .ranges b!"bf" [⟨b!"0003", b!"0061", .code b!"0020"⟩],
   .item (.obj (.int 1)), .chars b!"bf" [(b!"0062", b!"00660066")],
   .item (.word b!"endcmap")]

def exText : Bytes :=
  b!" /CIDInit /ProcSet findresource begin 9 dict begin begincmap /CMapName /UCS def 1 begincodespacerange <0000> <FFFF> endcodespacerange 1 beginbfrange <0003> <0061> <0020> endbfrange 1 beginbfchar <0062> <00660066> endbfchar endcmap "

set_option maxRecDepth 20000 in
theorem exCMap : CMapText 9 exBlocks exText := by
  have h0 : ItemsText [] (32 :: []) := .nil _ exSep
  have h1 := exWord (w := b!"endcmap") h0 (by decide) (by decide) (by decide)
  have h2 := exWord (w := b!"endbfchar") h1 (by decide) (by decide) (by decide)
  have h3 := exHex (d := b!"0062") (exHex (d := b!"00660066") h2 (by unfold UpHex; decide) (by decide)) (by unfold UpHex; decide) (by decide)
  have h4 := exInt (c := 49) (exWord (w := b!"beginbfchar") h3 (by decide) (by decide) (by decide)) (by decide)
  have h5 := exWord (w := b!"endbfrange") h4 (by decide) (by decide) (by decide)
  have h6 := exHex (d := b!"0003") (exHex (d := b!"0061") (exHex (d := b!"0020") h5 (by unfold UpHex; decide) (by decide))
    (by unfold UpHex; decide) (by decide)) (by unfold UpHex; decide) (by decide)
  have h7 := exInt (c := 49) (exWord (w := b!"beginbfrange") h6 (by decide) (by decide) (by decide)) (by decide)
  have h8 := exWord (w := b!"endcodespacerange") h7 (by decide) (by decide) (by decide)
  have h9 := exHex (d := b!"0000") (exHex (d := b!"FFFF") h8 (by unfold UpHex; decide) (by decide)) (by unfold UpHex; decide) (by decide)
  have h10 := exInt (c := 49) (exWord (w := b!"begincodespacerange") h9 (by decide) (by decide) (by decide)) (by decide)
  have h11 := exName (n := b!"CMapName") (exName (n := b!"UCS") (exWord (w := b!"def") h10 (by decide) (by decide) (by decide)) (by decide) (by decide))
    (by decide) (by decide)
  have h12 := exWord (w := b!"dict") (exWord (w := b!"begin") (exWord (w := b!"begincmap") h11 (by decide) (by decide) (by decide))
    (by decide) (by decide) (by decide)) (by decide) (by decide) (by decide)
  have h13 := exWord (w := b!"findresource") (exWord (w := b!"begin") (exInt (c := 57) h12 (by decide)) (by decide) (by decide) (by decide))
    (by decide) (by decide) (by decide)
  exact exName (n := b!"CIDInit") (exName (n := b!"ProcSet") h13 (by decide) (by decide)) (by decide) (by decide)

theorem exOk : ∀ b ∈ exBlocks, b.Ok := by
  intro b hb
  simp only [exBlocks, List.mem_cons, List.not_mem_nil, or_false] at hb
  rcases hb with rfl | rfl | rfl | rfl | rfl | rfl | rfl | rfl | rfl | rfl <;>
    simp [Block.Ok, RangeRow.Ok, CharOk, PairOk, UpHex, kinds, hexValue, hexVal?]
  all_goals decide

/-! ### C35 -/

/-- C35: reading the text of a CMap gives a mapping which, for every code, answers what the first row having this code says
(range rows before char rows), and KeyError for codes in no row. The codespace ranges are those of the file, and the name is the one
given by `/CMapName`, unless names are written with `#`. -/
theorem C35_cmap (n : Nat) (bs : List Block) (t : Bytes) (hok : ∀ b ∈ bs, b.Ok) (h : CMapText n bs t) :
    ∃ c, cmapP t = .ok c ∧ (35 ∉ t → c.name = nameOf (bs.flatMap Block.items)) ∧
      c.codespace = (codespaceRows bs).map (fun p => ⟨p.1.length, hexValue p.1, hexValue p.2⟩) ∧
      ∀ x, CodeOk x → mapGet c.bf x = answer (lookup b!"bf" bs x) ∧ mapGet c.cid x = answer (lookup b!"cid" bs x) ∧
        mapGet c.notdef x = answer (lookup b!"notdef" bs x) := by
  obtain ⟨c, h1, h2, h3, h4, h5, h6⟩ := cmapP_text hok h
  refine ⟨c, h1, ?_, h3, ?_⟩
  · intro hn
    rcases h2 with h2 | ⟨_, h2⟩
    · exact h2
    · exact absurd h2 hn
  · intro x hx
    exact ⟨maps_of_answers h4 x hx, maps_of_answers h5 x hx, maps_of_answers h6 x hx⟩

example : ∃ c, cmapP exText = .ok c ∧ c.name = some b!"UCS" ∧ c.codespace = [⟨4, 0, 0xFFFF⟩] ∧ mapGet c.bf b!"0024" = .ok [0x41] ∧
    mapGet c.bf b!"0062" = .ok [0x66, 0x66] ∧ mapGet c.bf b!"0063" = .error .keyError := by
  obtain ⟨c, h1, h2, h3, h4⟩ := C35_cmap 9 exBlocks exText exOk exCMap
  refine ⟨c, h1, ?_, ?_, ?_, ?_, ?_⟩
  · rw [h2 (by decide)]; rfl
  · rw [h3]; decide
  · rw [(h4 b!"0024" ⟨by decide, by unfold UpHex; decide⟩).1]; decide +kernel
  · rw [(h4 b!"0062" ⟨by decide, by unfold UpHex; decide⟩).1]; decide +kernel
  · rw [(h4 b!"0063" ⟨by decide, by unfold UpHex; decide⟩).1]; decide +kernel

/-- C35 for a code with a single row: a range row gives the destination of the first code plus the distance to it. -/
theorem C35_range (n : Nat) (bs : List Block) (t : Bytes) (hok : ∀ b ∈ bs, b.Ok) (h : CMapText n bs t) (lo hi d x : Bytes) (hx : CodeOk x)
    (hr : rangeRows b!"bf" bs = [⟨lo, hi, .code d⟩]) (hc : charRows b!"bf" bs = []) :
    ∃ c, cmapP t = .ok c ∧
      (InRange lo hi x → hexValue d + (hexValue x - hexValue lo) ≤ 0x10FFFF → mapGet c.bf x = .ok [hexValue d + (hexValue x - hexValue lo)]) ∧
      (¬ InRange lo hi x → mapGet c.bf x = .error .keyError) := by
  obtain ⟨c, h1, _, _, h4⟩ := C35_cmap n bs t hok h
  refine ⟨c, h1, ?_, ?_⟩
  · intro hin hle
    rw [(h4 x hx).1]
    unfold lookup
    rw [hr, hc]
    simp only [List.findSome?, RangeRow.get, if_pos hin, Dst.at, charOf]
    rw [if_pos (by omega)]
    simp only [Option.or, answer]
    congr 2
  · intro hin
    rw [(h4 x hx).1]
    unfold lookup
    rw [hr, hc]
    simp [List.findSome?, RangeRow.get, if_neg hin, answer]

/-! ### C36 -/

/-- C36: a hexadecimal string made of codes mapped as a whole decodes to the texts of the codes, in order; the fallback encoding
plays no role. -/
theorem C36_hexstring (n : Nat) (bs : List Block) (t : Bytes) (hok : ∀ b ∈ bs, b.Ok) (h : CMapText n bs t) (fb : Bytes → Res Text)
    (segs : List (Bytes × Text)) (hs : Segments (lookup b!"bf" bs) segs) :
    ∃ c, cmapP t = .ok c ∧ cmapDecodeHex c.bf fb (segs.flatMap (·.1)) = .ok (segs.flatMap (·.2)) := by
  obtain ⟨c, h1, h2, h3, h4, _⟩ := cmapP_text hok h
  refine ⟨c, h1, ?_⟩
  rw [cmapDecodeHex_shows (maps_of_answers h4) fb (segs_even segs hs) (segs_upHex segs hs)]
  have := shows_segments (fb := fb) segs hs [] rfl
  rw [List.append_nil, shows_nil] at this
  rw [this]
  show Except.ok (segs.flatMap (·.2) ++ []) = _
  rw [List.append_nil]

/-- C36 for literal strings: their bytes are the codes. -/
theorem C36_string (n : Nat) (bs : List Block) (t : Bytes) (hok : ∀ b ∈ bs, b.Ok) (h : CMapText n bs t) (fb : Bytes → Res Text)
    (segs : List (Bytes × Text)) (hs : Segments (lookup b!"bf" bs) segs) (s : Bytes) (hh : s.flatMap hexPair = segs.flatMap (·.1)) :
    ∃ c, cmapP t = .ok c ∧ cmapDecodeStr c.bf fb s = .ok (segs.flatMap (·.2)) := by
  obtain ⟨c, h1, h2⟩ := C36_hexstring n bs t hok h fb segs hs
  refine ⟨c, h1, ?_⟩
  unfold cmapDecodeStr
  rw [hexUpper_pairs, hh, h2]

example : ∃ c, cmapP exText = .ok c ∧ cmapDecodeStr c.bf (fun _ => .error .keyError) [0, 0x24, 0, 0x62] = .ok [0x41, 0x66, 0x66] := by
  refine C36_string 9 exBlocks exText exOk exCMap _ [(b!"0024", [0x41]), (b!"0062", [0x66, 0x66])] ?_ _ (by decide)
  intro p hp
  simp only [List.mem_cons, List.not_mem_nil, or_false] at hp
  rcases hp with rfl | rfl
  · exact ⟨by unfold UpHex; decide, by decide +kernel, Or.inr (by decide +kernel)⟩
  · exact ⟨by unfold UpHex; decide, by decide +kernel, Or.inr (by decide +kernel)⟩

/-! ### C61: destinations are UTF-16BE -/

/-- C61, counterexample: a character outside of the BMP, given by its surrogates, becomes two lone surrogates. -/
theorem C61_surrogates_counterexample :
    mapGet [.char b!"01" b!"D83DDE00"] b!"01" = .ok [0xD83D, 0xDE00] ∧ utf16 (codeUnits b!"D83DDE00") = [0x1F600] := by
  decide +kernel

/-- C61, counterexample: a range whose first text has two characters (`fi`) becomes the replacement character. -/
theorem C61_range_counterexample :
    (rowEntries b!"01" b!"02" (.hex b!"00660069")).bind (fun ms => mapGet ms b!"01") = .ok [0xFFFD] ∧ utf16 (codeUnits b!"00660069") = [0x66, 0x69] := by
  decide +kernel

/-- C61, proved part: if only one row has the code `x`, a char row with destination `d`, then `x` maps to the text which `d` is in UTF-16BE,
provided this has no surrogates. Missing: surrogates and ranges with several characters, where the claim is false. -/
theorem C61_char_partial (n : Nat) (bs : List Block) (t : Bytes) (hok : ∀ b ∈ bs, b.Ok) (h : CMapText n bs t) (x d : Bytes) (hx : CodeOk x)
    (hr : ∀ r ∈ rangeRows b!"bf" bs, ¬ InRange r.lo r.hi x) (hc : (x, d) ∈ charRows b!"bf" bs) (hu : ∀ p ∈ charRows b!"bf" bs, p.1 = x → p = (x, d))
    (h4 : d.length % 4 = 0) (hbmp : ∀ u ∈ codeUnits d, u < 0xD800 ∨ 0xDFFF < u) :
    ∃ c, cmapP t = .ok c ∧ mapGet c.bf x = .ok (utf16 (codeUnits d)) := by
  obtain ⟨c, h1, _, _, h5⟩ := C35_cmap n bs t hok h
  refine ⟨c, h1, ?_⟩
  rw [(h5 x hx).1]
  have e1 : (rangeRows b!"bf" bs).findSome? (fun r => r.get x) = none := by
    rw [List.findSome?_eq_none_iff]
    intro r hrr
    unfold RangeRow.get
    rw [if_neg (hr r hrr)]
  have e2 : (charRows b!"bf" bs).findSome? (fun p => charGet b!"bf" p x) = some (unitsOf d) := by
    generalize charRows b!"bf" bs = rows at hc hu
    induction rows with
    | nil => cases hc
    | cons p rows ih =>
      rw [List.findSome?_cons]
      by_cases hp : p.1 = x
      · have := hu p List.mem_cons_self hp
        subst this
        unfold charGet
        rw [if_pos rfl]
        simp
      · have e : charGet b!"bf" p x = none := by
          unfold charGet
          rw [if_neg (fun e => hp e.symm)]
        rw [e]
        dsimp only
        apply ih
        · rcases List.mem_cons.mp hc with hc | hc
          · rw [← hc] at hp; exact absurd rfl hp
          · exact hc
        · exact fun q hq => hu q (List.mem_cons_of_mem _ hq)
  unfold lookup
  rw [e1, e2, unitsOf_codeUnits d h4, utf16_bmp _ hbmp]
  rfl

set_option maxRecDepth 20000 in
example : ∃ c, cmapP exText = .ok c ∧ mapGet c.bf b!"0062" = .ok [0x66, 0x66] :=
  C61_char_partial 9 exBlocks exText exOk exCMap b!"0062" b!"00660066" ⟨by decide, by unfold UpHex; decide⟩ (by decide +kernel) (by decide) (by decide) rfl (by decide)

/-! ### C62: an unmapped code affects no other -/

/-- C62, counterexample: the codes `0041` and `0200` are mapped, `0102` is not. The string `0102 0041` is read as `01`, `0200`, `41`. -/
theorem C62_desync_counterexample :
    cmapDecodeHex [.char b!"0041" b!"0041", .char b!"0200" b!"0042"] (fun x => (hexNat x).map (fun n => [n])) b!"01020041" = .ok [1, 0x42, 0x41] := by
  decide +kernel

/-- C62, proved part: a byte `ab` which starts no mapped code (neither alone nor with the byte after it) between mapped codes shows as
the fallback encoding says, and what stands before and after it is decoded as if it were alone. Missing: `00`, which shows as nothing, and
bytes which form a code with the next byte. -/
theorem C62_unmapped_partial (n : Nat) (bs : List Block) (t : Bytes) (hok : ∀ b ∈ bs, b.Ok) (h : CMapText n bs t) (fb : Bytes → Res Text)
    (before after : List (Bytes × Text)) (hb : Segments (lookup b!"bf" bs) before) (ha : Segments (lookup b!"bf" bs) after) (a b : Byte) (ch : Text)
    (hab : UpHex [a, b]) (h0 : [a, b] ≠ b!"00") (hfb : fb [a, b] = .ok ch) (h1 : lookup b!"bf" bs [a, b] = none)
    (h2 : lookup b!"bf" bs ([a, b] ++ (after.flatMap (·.1)).take 2) = none) :
    ∃ c, cmapP t = .ok c ∧
      cmapDecodeHex c.bf fb (before.flatMap (·.1) ++ ([a, b] ++ after.flatMap (·.1))) = .ok (before.flatMap (·.2) ++ (ch ++ after.flatMap (·.2))) := by
  obtain ⟨c, g1, _, _, g4, _⟩ := cmapP_text hok h
  refine ⟨c, g1, ?_⟩
  have ev := segs_even after ha
  have ev' : ([a, b] ++ after.flatMap (·.1)).length % 2 = 0 := by
    rw [List.length_append]
    simp only [List.length_cons, List.length_nil]
    omega
  have up : UpHex (before.flatMap (·.1) ++ ([a, b] ++ after.flatMap (·.1))) := by
    intro x hx
    rcases List.mem_append.mp hx with hx | hx
    · exact segs_upHex before hb x hx
    · rcases List.mem_append.mp hx with hx | hx
      · exact hab x hx
      · exact segs_upHex after ha x hx
  have hafter : shows (lookup b!"bf" bs) fb (after.flatMap (·.1)) = .ok (after.flatMap (·.2)) := by
    have := shows_segments (fb := fb) after ha [] rfl
    rw [List.append_nil, shows_nil] at this
    rw [this]
    show Except.ok (after.flatMap (·.2) ++ []) = _
    rw [List.append_nil]
  rw [cmapDecodeHex_shows (maps_of_answers g4) fb (by rw [List.length_append]; have := segs_even before hb; omega) up,
    shows_segments before hb _ ev']
  have hl : loneByte fb [a, b] = .ok ch := by
    unfold loneByte
    rw [if_neg h0, hfb]
  have key : shows (lookup b!"bf" bs) fb ([a, b] ++ after.flatMap (·.1)) = .ok (ch ++ after.flatMap (·.2)) := by
    generalize after.flatMap (·.1) = r at *
    generalize after.flatMap (·.2) = u at *
    match r, ev with
    | [], _ =>
      rw [shows_nil] at hafter
      injection hafter with hafter
      subst hafter
      rw [List.append_nil, List.append_nil, shows, h1]
      exact hfb
    | [_], ev => simp at ev
    | x :: y :: r, _ =>
      show shows _ fb (a :: b :: x :: y :: r) = _
      rw [shows_lone h1 h2 hl, hafter]
      rfl
  rw [key]
  rfl

example : ∃ c, cmapP exText = .ok c ∧ cmapDecodeHex c.bf (fun _ => .ok [0x3F]) b!"0024410062" = .ok [0x41, 0x3F, 0x66, 0x66] := by
  refine C62_unmapped_partial 9 exBlocks exText exOk exCMap _ [(b!"0024", [0x41])] [(b!"0062", [0x66, 0x66])] ?_ ?_ 52 49 [0x3F] (by unfold UpHex; decide)
    (by decide) rfl (by decide +kernel) (by decide +kernel)
  all_goals
    intro p hp
    simp only [List.mem_cons, List.not_mem_nil, or_false] at hp
    subst hp
    exact ⟨by unfold UpHex; decide, by decide +kernel, Or.inr (by decide +kernel)⟩

/-! ### C63: decoding ends -/

theorem shows_no_key (m : Bytes → Option Text) (fb : Bytes → Res Text) (hfb : ∀ x, ∃ t, fb x = .ok t) (s : Bytes) : ∃ t, shows m fb s = .ok t := by
  have hl : ∀ x, ∃ t, loneByte fb x = .ok t := by
    intro x
    unfold loneByte
    split
    · exact ⟨[], rfl⟩
    · exact hfb x
  fun_induction shows m fb s with
  | case1 a b c d r t h ih =>
    obtain ⟨u, hu⟩ := ih
    exact ⟨t ++ u, by rw [hu]; rfl⟩
  | case2 a b c d r h t h' ih =>
    obtain ⟨u, hu⟩ := ih
    exact ⟨t ++ u, by rw [hu]; rfl⟩
  | case3 a b c d r h h' e he =>
    obtain ⟨u, hu⟩ := hl [a, b]
    rw [hu] at he
    cases he
  | case4 a b c d r h h' t he ih =>
    obtain ⟨u, hu⟩ := ih
    exact ⟨t ++ u, by rw [hu]; rfl⟩
  | case5 a b t h => exact ⟨t, rfl⟩
  | case6 a b h => exact hfb _
  | case7 => exact ⟨[], rfl⟩

/-- C63: decoding any literal string with any proper CMap ends with a text, when the fallback encoding gives a text for every byte. -/
theorem C63_decoding_total (n : Nat) (bs : List Block) (t : Bytes) (hok : ∀ b ∈ bs, b.Ok) (h : CMapText n bs t) (fb : Bytes → Res Text)
    (hfb : ∀ x, ∃ u, fb x = .ok u) (s : Bytes) : ∃ c u, cmapP t = .ok c ∧ cmapDecodeStr c.bf fb s = .ok u := by
  obtain ⟨c, g1, _, _, g4, _⟩ := cmapP_text hok h
  obtain ⟨u, hu⟩ := shows_no_key (lookup b!"bf" bs) fb hfb (hexUpper s)
  refine ⟨c, u, g1, ?_⟩
  unfold cmapDecodeStr
  have hup : UpHex (hexUpper s) := by
    rw [hexUpper_pairs]
    intro c hc
    rw [List.mem_flatMap] at hc
    obtain ⟨b, _, hc⟩ := hc
    exact forall_u8 (fun b => ∀ c ∈ hexPair b, c ∈ (b!"0123456789ABCDEF")) (by decide +kernel) b c hc
  have hlen : (hexUpper s).length % 2 = 0 := by
    clear hup hu
    induction s with
    | nil => rfl
    | cons c r ih => rw [hexUpper]; simp only [List.length_cons]; omega
  rw [cmapDecodeHex_shows (maps_of_answers g4) fb hlen hup, hu]

end PdfReader
