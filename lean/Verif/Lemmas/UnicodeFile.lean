/-
  ToUnicode CMaps as they are written.
-/
import Verif.Spec.UnicodeFile
import Verif.Lemmas.TextFile

namespace PdfReader

open Spec

theorem hexPair_up (c : Byte) : ∀ x ∈ hexPair c, x ∈ (b!"0123456789ABCDEF") := forall_u8 (fun c => ∀ x ∈ hexPair c, x ∈ (b!"0123456789ABCDEF")) (by decide +kernel) c

theorem hexPair_value (c : Byte) : hexValue (hexPair c) = c.toNat := forall_u8 (fun c => hexValue (hexPair c) = c.toNat) (by decide +kernel) c

theorem hex4_up (n : Nat) : UpHex (hex4 n) := by
  intro x hx
  rcases List.mem_append.mp hx with h | h <;> exact hexPair_up _ x h

theorem hex4_length (n : Nat) : (hex4 n).length = 4 := rfl

theorem ofNat_toNat {n : Nat} (h : n < 256) : (UInt8.ofNat n).toNat = n := by
  rw [UInt8.toNat_ofNat']
  exact Nat.mod_eq_of_lt h

theorem hex4_value {n : Nat} (h : n < 65536) : hexValue (hex4 n) = n := by
  unfold hex4
  rw [hexValue_append, hexPair_value, hexPair_value, ofNat_toNat (by omega), ofNat_toNat (by omega)]
  show n / 256 * 16 ^ 2 + n % 256 = n
  omega

theorem hex4_inj {a b : Nat} (ha : a < 65536) (hb : b < 65536) (h : hex4 a = hex4 b) : a = b := by
  rw [← hex4_value ha, h, hex4_value hb]

theorem hexs_up (t : Text) : UpHex (t.flatMap hex4) := by
  intro x hx
  obtain ⟨c, _, h⟩ := List.mem_flatMap.mp hx
  exact hex4_up c x h

theorem hexs_even : ∀ t : Text, (t.flatMap hex4).length % 2 = 0
  | [] => rfl
  | c :: t => by rw [List.flatMap_cons, List.length_append, hex4_length]; have := hexs_even t; omega

theorem hexs_ne {t : Text} (h : t ≠ []) : t.flatMap hex4 ≠ [] := by
  cases t with
  | nil => exact absurd rfl h
  | cons c t => rw [List.flatMap_cons]; intro e; have := congrArg List.length e; rw [List.length_append, hex4_length] at this; simp at this

theorem units_hexs : ∀ t : Text, (∀ c ∈ t, c < 65536) → unitsOf (t.flatMap hex4) = t
  | [], _ => by rw [List.flatMap_nil, unitsOf]; rfl
  | c :: t, h => by
    have ne := hexs_ne (t := c :: t) (by simp)
    rw [unitsOf, dif_neg ne, List.flatMap_cons, List.take_left' (hex4_length c), List.drop_left' (hex4_length c), hex4_value (h c (by simp)), units_hexs t fun x hx => h x (by simp [hx])]

/-- The section of a row. -/
def rowBlocks (r : Nat × Text) : List Block := [.item (.obj (.int 1)), .chars b!"bf" [(hex4 r.1, r.2.flatMap hex4)]]

/-- The blocks of the CMap. -/
def mapBlocks (table : List (Nat × Text)) : List Block :=
  [.item (.obj (.int 1)), .codespace [(b!"0000", b!"FFFF")]] ++
    (table.flatMap rowBlocks ++ [.item (.word b!"endcmap")])

theorem map_rows : ∀ table : List (Nat × Text), ∃ u, table.flatMap mapRow ++ b!" endcmap " = 32 :: u ∧
    ItemsText ((table.flatMap rowBlocks ++ [Block.item (.word b!"endcmap")]).flatMap Block.items) (32 :: u)
  | [] => ⟨_, rfl, exWord (w := b!"endcmap") (.nil [32] exSep) (by decide) (by decide) (by decide)⟩
  | r :: table => by
    obtain ⟨u, e, ih⟩ := map_rows table
    have h1 := exWord (w := b!"endbfchar") ih (by decide) (by decide) (by decide)
    have h2 := exHex (d := hex4 r.1) (exHex (d := r.2.flatMap hex4) h1 (hexs_up _) (hexs_even _)) (hex4_up _) (by rw [hex4_length])
    have h3 := exInt (c := 49) (exWord (w := b!"beginbfchar") h2 (by decide) (by decide) (by decide)) (by decide)
    refine ⟨_, ?_, h3⟩
    rw [List.flatMap_cons, List.append_assoc, e]
    unfold mapRow
    simp

theorem map_text (table : List (Nat × Text)) : CMapText 9 (mapBlocks table) (mapText table) := by
  obtain ⟨u, e, h⟩ := map_rows table
  have h8 := exWord (w := b!"endcodespacerange") h (by decide) (by decide) (by decide)
  have h9 := exHex (d := b!"0000") (exHex (d := b!"FFFF") h8 (by unfold UpHex; decide) (by decide)) (by unfold UpHex; decide) (by decide)
  have h10 := exInt (c := 49) (exWord (w := b!"begincodespacerange") h9 (by decide) (by decide) (by decide)) (by decide)
  have h11 := exWord (w := b!"begin") (exWord (w := b!"begincmap") h10 (by decide) (by decide) (by decide)) (by decide) (by decide) (by decide)
  have h12 := exInt (c := 57) (exWord (w := b!"dict") h11 (by decide) (by decide) (by decide)) (by decide)
  have h13 := exWord (w := b!"findresource") (exWord (w := b!"begin") h12 (by decide) (by decide) (by decide)) (by decide) (by decide) (by decide)
  have h14 := exName (n := b!"CIDInit") (exName (n := b!"ProcSet") h13 (by decide) (by decide)) (by decide) (by decide)
  unfold mapText
  rw [e]
  exact h14

theorem map_ok {table : List (Nat × Text)} (h : ∀ r ∈ table, r.2 ≠ []) : ∀ b ∈ mapBlocks table, b.Ok := by
  intro b hb
  unfold mapBlocks at hb
  rcases List.mem_append.mp hb with hb | hb
  · simp only [List.mem_cons, List.not_mem_nil, or_false] at hb
    rcases hb with rfl | rfl
    · trivial
    · intro p hp
      rw [List.mem_singleton] at hp
      subst hp
      exact ⟨by decide, by decide, by decide, by unfold UpHex; decide, by unfold UpHex; decide⟩
  · rcases List.mem_append.mp hb with hb | hb
    · obtain ⟨r, hr, hb⟩ := List.mem_flatMap.mp hb
      unfold rowBlocks at hb
      simp only [List.mem_cons, List.not_mem_nil, or_false] at hb
      rcases hb with rfl | rfl
      · trivial
      · refine ⟨by decide, fun p hp => ?_⟩
        rw [List.mem_singleton] at hp
        subst hp
        exact ⟨by intro e; have := congrArg List.length e; simp [hex4_length] at this, hex4_up _, hexs_ne (h r hr), hexs_up _⟩
    · rw [List.mem_singleton] at hb
      subst hb
      exact ⟨by decide, by decide⟩

theorem map_ranges (table : List (Nat × Text)) : rangeRows b!"bf" (mapBlocks table) = [] := by
  unfold rangeRows mapBlocks
  refine List.flatMap_eq_nil_iff.mpr fun b hb => ?_
  rcases List.mem_append.mp hb with hb | hb
  · simp only [List.mem_cons, List.not_mem_nil, or_false] at hb
    rcases hb with rfl | rfl <;> rfl
  · rcases List.mem_append.mp hb with hb | hb
    · obtain ⟨r, hr, hb⟩ := List.mem_flatMap.mp hb
      unfold rowBlocks at hb
      simp only [List.mem_cons, List.not_mem_nil, or_false] at hb
      rcases hb with rfl | rfl <;> rfl
    · rw [List.mem_singleton] at hb
      subst hb
      rfl

theorem map_chars (table : List (Nat × Text)) : charRows b!"bf" (mapBlocks table) = table.map fun r => (hex4 r.1, r.2.flatMap hex4) := by
  unfold charRows mapBlocks
  rw [List.flatMap_append, List.flatMap_append]
  show [] ++ (_ ++ []) = _
  rw [List.nil_append, List.append_nil]
  induction table with
  | nil => rfl
  | cons r table ih => rw [List.flatMap_cons, List.flatMap_append, ih]; rfl

/-- The CMap says what the table says. -/
theorem map_lookup {table : List (Nat × Text)} (h : ∀ r ∈ table, r.1 < 65536 ∧ ∀ c ∈ r.2, c < 65536) {k : Nat} (hk : ∃ t, (k, t) ∈ table) :
    lookup b!"bf" (mapBlocks table) (hex4 k) = some (meaning table k) := by
  unfold lookup meaning
  rw [map_ranges, map_chars]
  show (none.or _ : Option Text) = _
  rw [Option.none_or]
  have hk16 : k < 65536 := by obtain ⟨t, ht⟩ := hk; exact (h _ ht).1
  induction table with
  | nil => obtain ⟨t, ht⟩ := hk; cases ht
  | cons r table ih =>
    rw [List.map_cons, List.findSome?_cons]
    by_cases e : r.1 = k
    · have : charGet b!"bf" (hex4 r.1, r.2.flatMap hex4) (hex4 k) = some r.2 := by
        unfold charGet
        rw [if_pos (by rw [e]), if_pos rfl, units_hexs _ (h r (by simp)).2]
      rw [this, List.find?_cons_of_pos (by simpa using e)]
      rfl
    · have : charGet b!"bf" (hex4 r.1, r.2.flatMap hex4) (hex4 k) = none := by
        unfold charGet
        exact if_neg fun e' => e (hex4_inj (h r (by simp)).1 hk16 e'.symm)
      rw [this, List.find?_cons_of_neg (by simpa using e)]
      refine ih (fun r hr => h r (by simp [hr])) ?_
      obtain ⟨t, ht⟩ := hk
      rcases List.mem_cons.mp ht with rfl | ht
      · exact absurd rfl e
      · exact ⟨t, ht⟩

theorem map_short {table : List (Nat × Text)} {x : Bytes} (hx : x.length = 2) : lookup b!"bf" (mapBlocks table) x = none := by
  unfold lookup
  rw [map_ranges, map_chars]
  show (none.or _ : Option Text) = _
  rw [Option.none_or]
  refine List.findSome?_eq_none_iff.mpr fun p hp => ?_
  obtain ⟨r, _, rfl⟩ := List.mem_map.mp hp
  unfold charGet
  refine if_neg fun e => ?_
  have := congrArg List.length e
  rw [hex4_length, hx] at this
  omega

/-- A line of codes as segments. -/
theorem line_segments {table : List (Nat × Text)} (h : ∀ r ∈ table, r.1 < 65536 ∧ ∀ c ∈ r.2, c < 65536) (l : List Nat) (hl : ∀ k ∈ l, ∃ t, (k, t) ∈ table) :
    Segments (lookup b!"bf" (mapBlocks table)) (l.map fun k => (hex4 k, meaning table k)) := by
  intro p hp
  obtain ⟨k, hk, rfl⟩ := List.mem_map.mp hp
  exact ⟨hex4_up k, map_lookup h (hl k hk), Or.inr ⟨hex4_length k, map_short rfl⟩⟩

theorem line_pairs : ∀ l : List Nat, (l.flatMap twoBytes).flatMap hexPair = l.flatMap hex4
  | [] => rfl
  | k :: l => by rw [List.flatMap_cons, List.flatMap_append, line_pairs l, List.flatMap_cons]; rfl

/-- What a line means in a font with this CMap. -/
theorem line_means {builtin : Builtin} {predefined : Bytes → Option CMap} {fd : FontDict} {table : List (Nat × Text)} (hf : fd.toUnicode = some (mapText table))
    (h : ∀ r ∈ table, r.1 < 65536 ∧ r.2 ≠ [] ∧ ∀ c ∈ r.2, c < 65536) (l : List Nat) (hl : ∀ k ∈ l, ∃ t, (k, t) ∈ table) :
    Means builtin predefined fd (.str (l.flatMap twoBytes)) (l.flatMap (meaning table)) := by
  have := Means.toUnicode (builtin := builtin) (predefined := predefined) (fd := fd) (o := .str (l.flatMap twoBytes)) (mapText table) 9 (mapBlocks table) _
    (l.map fun k => (hex4 k, meaning table k)) hf (map_text table) (map_ok fun r hr => (h r hr).2.1) (.str _) (line_segments (fun r hr => ⟨(h r hr).1, (h r hr).2.2⟩) l hl)
    (by rw [line_pairs, List.flatMap_map])
  rw [List.flatMap_map] at this
  exact this

end PdfReader
