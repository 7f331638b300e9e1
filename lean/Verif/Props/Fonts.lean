/-
  C39, C40, C65, C67: differences, fonts and glyph names.
-/
import Verif.Props.Codecs
import Verif.Spec.Text

namespace PdfReader

open Spec

/-! ### C39: differences -/

theorem decode_one {c : Codec} {b : Byte} {t : Text} (h : (codecDecode c [b] []).1 = .ok t) : bytePure c b = .ok t := by
  rw [codecDecode_fresh, decodePure_cons] at h
  cases hb : bytePure c b with
  | error e => rw [hb] at h; cases h
  | ok g =>
    rw [hb] at h
    have e : Except.ok (g ++ []) = (Except.ok t : Res Text) := h
    rw [List.append_nil] at e
    exact e

/-- The text of a byte: that of the name given to it by the differences, else that of the base encoding. -/
def diffText (runs : List DiffRun) (base : Byte → Text) (b : Byte) : Text :=
  match diffName runs (b.toNat : Int) with
  | some n => glyphText true n
  | none => base b

/-- C39: with an encoding dictionary whose Differences consist of the given runs, each byte which some run lists decodes to the text
of the glyph name which the last such run gives it; every other byte decodes as in the base encoding. -/
theorem C39_differences (builtin : Builtin) (cls : Nat) (d : List (Bytes × Obj)) (runs : List DiffRun)
    (hd : dictGet d b!"Differences" = some (.arr (diffArray runs))) (s : Bytes) (base : Byte → Text)
    (hb : ∀ b ∈ s, diffName runs (b.toNat : Int) = none → (codecDecode (diffBase (dictGet d b!"BaseEncoding")) [b] []).1 = .ok (base b)) :
    (encodingDecode builtin cls (.dict d) s []).1 = .ok (s.flatMap (diffText runs base)) := by
  obtain ⟨dt, h1, h2⟩ := diffLoop_runs runs none (diffBase (dictGet d b!"BaseEncoding")).dec
  have hc : differencesCodec cls d = .ok ⟨cls, true, (diffBase (dictGet d b!"BaseEncoding")).enc, dt⟩ := by
    unfold differencesCodec
    rw [hd]
    dsimp only
    rw [h1]
  have hz : (diffBase (dictGet d b!"BaseEncoding")).zapf = true := by
    unfold diffBase
    split
    · rename_i n _
      unfold baseCodec
      repeat' split
      all_goals rfl
    · rfl
  unfold encodingDecode
  dsimp only
  rw [hc]
  dsimp only
  rw [codecDecode_fresh]
  refine decodePure_all ?_
  intro x hx
  unfold bytePure diffText
  dsimp only
  rw [h2]
  cases hn : diffName runs (x.toNat : Int) with
  | some n => rfl
  | none =>
    simp only [Option.map_none, Option.none_or]
    have := decode_one (hb x hx hn)
    unfold bytePure at this
    rw [hz] at this
    exact this

/-- The characters which some built-in table has wrong (C66). -/
def wrongBytes : List Nat := [0xA4, 0xA8, 0xB7, 0xDB]

theorem base_table {o : Option Obj} {char : Nat → Option Nat}
    (ho : (∃ n, o = some (.name n) ∧ (tableOf n).getD standardChar = char) ∨ ((o = none ∨ o = some .null) ∧ standardChar = char)) {b : Byte}
    (hb : b.toNat ∉ wrongBytes) : (codecDecode (diffBase o) [b] []).1 = .ok [(char b.toNat).getD b.toNat] := by
  simp only [wrongBytes, List.mem_cons, List.not_mem_nil, or_false, not_or] at hb
  obtain ⟨b1, b2, b3, b4⟩ := hb
  have std : (codecDecode standard [b] []).1 = .ok [(standardChar b.toNat).getD b.toNat] := C66_standard_partial [b] (by simp [b2, b3])
  rcases ho with ⟨n, rfl, h⟩ | ⟨rfl | rfl, h⟩
  · subst h
    unfold tableOf diffBase baseCodec
    by_cases e1 : n = b!"WinAnsiEncoding"
    · simp only [if_pos e1]
      exact C66_winansi_partial [b] (by simp [b1])
    · simp only [if_neg e1]
      by_cases e2 : n = b!"PDFDocEncoding"
      · simp only [if_pos e2]
        exact C66_pdfdoc_partial [b] (by simp [b1])
      · simp only [if_neg e2]
        by_cases e3 : n = b!"MacRomanEncoding"
        · simp only [if_pos e3]
          exact C66_macroman_partial [b] (by simp [b4])
        · simp only [if_neg e3]
          by_cases e4 : n = b!"StandardEncoding"
          · simp only [if_pos e4]
            exact std
          · simp only [if_neg e4]
            exact std
  · subst h
    exact std
  · subst h
    exact std

/-- C39 with the tables of the standard: the base encoding is the one named by BaseEncoding; StandardEncoding if there is none or it is
not known. -/
theorem C39_tables (builtin : Builtin) (cls : Nat) (d : List (Bytes × Obj)) (runs : List DiffRun)
    (hd : dictGet d b!"Differences" = some (.arr (diffArray runs))) (char : Nat → Option Nat)
    (hbase : BaseChars d char)
    (s : Bytes) (hs : ∀ b ∈ s, diffName runs (b.toNat : Int) = none → b.toNat ∉ wrongBytes) :
    (encodingDecode builtin cls (.dict d) s []).1 = .ok (s.flatMap (diffText runs (fun b => [(char b.toNat).getD b.toNat]))) :=
  C39_differences builtin cls d runs hd s _ (fun b hb hn => base_table hbase (hs b hb hn))

theorem noDifferences {d : List (Bytes × Obj)} (h : Missing d b!"Differences") (cls : Nat) : differencesCodec cls d =
    .ok ⟨cls, true, (diffBase (dictGet d b!"BaseEncoding")).enc, (diffBase (dictGet d b!"BaseEncoding")).dec⟩ := by
  unfold differencesCodec
  rcases h with h | h <;> rw [h]

/-- C39: a dictionary without Differences decodes as the base encoding. -/
theorem C39_noDifferences (builtin : Builtin) (cls : Nat) (d : List (Bytes × Obj)) (hd : Missing d b!"Differences")
    (char : Nat → Option Nat)
    (hbase : BaseChars d char)
    (s : Bytes) (hs : ∀ b ∈ s, b.toNat ∉ wrongBytes) :
    (encodingDecode builtin cls (.dict d) s []).1 = .ok (charsOf char s) := by
  have hz : (diffBase (dictGet d b!"BaseEncoding")).zapf = true := by
    unfold diffBase
    split
    · rename_i n _
      unfold baseCodec
      repeat' split
      all_goals rfl
    · rfl
  unfold encodingDecode
  dsimp only
  rw [noDifferences hd]
  dsimp only
  rw [codecDecode_fresh]
  have := decodePure_all (c := ⟨cls, true, (diffBase (dictGet d b!"BaseEncoding")).enc, (diffBase (dictGet d b!"BaseEncoding")).dec⟩)
    (f := fun b => [(char b.toNat).getD b.toNat]) (s := s) (by
      intro x hx
      have := decode_one (base_table hbase (hs x hx))
      unfold bytePure at this
      rw [hz] at this
      exact this)
  rw [this]
  unfold charsOf
  rw [List.flatMap_eq_foldl] 
  congr 1
  exact flatMap_single s _
where
  flatMap_single (s : Bytes) (f : Byte → Nat) : List.foldl (fun acc a => acc ++ [f a]) [] s = s.map f := by
    have : ∀ (s : Bytes) acc, List.foldl (fun acc a => acc ++ [f a]) acc s = acc ++ s.map f := by
      intro s
      induction s with
      | nil => intro acc; simp
      | cons x s ih => intro acc; rw [List.foldl_cons, ih]; simp
    simpa using this s []

/-- C39: an array which does not start with a number cannot be used: the exception is UnboundLocalError. -/
theorem C39_nameFirst (builtin : Builtin) (cls : Nat) (d : List (Bytes × Obj)) (n : Bytes) (os : List Obj)
    (hd : dictGet d b!"Differences" = some (.arr (.name n :: os))) (s : Bytes) :
    (encodingDecode builtin cls (.dict d) s []).1 = .error .unboundLocal := by
  unfold encodingDecode differencesCodec
  dsimp only
  rw [hd]
  rfl

/-- `/Differences [65 /alpha /beta 66 /gamma] /BaseEncoding /WinAnsiEncoding` on `ABC` and the Euro sign: code 66 is given by the
second run. -/
example : (encodingDecode (fun _ => none) 9 (.dict [(b!"BaseEncoding", .name b!"WinAnsiEncoding"),
    (b!"Differences", .arr [.int 65, .name b!"alpha", .name b!"beta", .int 66, .name b!"gamma"])]) [65, 66, 67, 0x80] []).1 =
    .ok [0x3B1, 0x3B3, 67, 0x20AC] := by
  rw [C39_tables (fun _ => none) 9 _ [⟨65, [b!"alpha", b!"beta"]⟩, ⟨66, [b!"gamma"]⟩] (by decide +kernel) winAnsiChar
    (Or.inl ⟨b!"WinAnsiEncoding", by decide +kernel, rfl⟩) _ (by decide +kernel)]
  decide +kernel

/-! ### C40: encodings by name -/

/-- The search functions of Python know none of the names of built-in encodings. -/
def NotPython (builtin : Builtin) (n : Bytes) : Prop := builtin n = none

/-- C40: a font with `/Encoding /WinAnsiEncoding`, and neither ToUnicode nor a predefined CMap of this name, decodes by this encoding. -/
theorem C40_winansi_partial (builtin : Builtin) (predefined : Bytes → Option CMap) (cls : Nat) (f : FontDict) (s : Bytes)
    (h1 : f.toUnicode = none) (h2 : f.encoding = some (.name b!"WinAnsiEncoding")) (h3 : predefined b!"WinAnsiEncoding" = none)
    (h4 : NotPython builtin b!"WinAnsiEncoding") (hs : ∀ b ∈ s, b.toNat ≠ 0xA4) :
    fontDecode builtin predefined cls f s = .ok (charsOf winAnsiChar s) := by
  unfold fontDecode cmapEncoding
  simp only [h1, h2, h3, Option.isSome_none, Bool.false_eq_true, if_false]
  rw [if_pos (by decide)]
  unfold encodingDecode lookupDecode
  dsimp only
  unfold NotPython at h4
  rw [h4]
  exact C66_winansi_partial s hs

/-- C40: a font whose encoding is a dictionary naming a base encoding decodes by that encoding. -/
theorem C40_dictionary_partial (builtin : Builtin) (predefined : Bytes → Option CMap) (cls : Nat) (f : FontDict) (s : Bytes)
    (d : List (Bytes × Obj)) (n : Bytes) (char : Nat → Option Nat)
    (h1 : f.toUnicode = none) (h2 : f.encoding = some (.dict d)) (h3 : dictGet d b!"BaseEncoding" = some (.name n)) (h4 : tableOf n = some char)
    (h5 : dictGet d b!"Differences" = none) (hs : ∀ b ∈ s, b.toNat ∉ wrongBytes) :
    fontDecode builtin predefined cls f s = .ok (charsOf char s) := by
  unfold fontDecode cmapEncoding
  simp only [h1, h2, Option.isSome_none, Bool.false_eq_true, if_false]
  rw [if_pos (by
    unfold truthyEnc
    simp only [decide_not, Bool.not_eq_eq_eq_not, Bool.not_true, decide_eq_false_iff_not]
    intro e
    rw [e] at h3
    cases h3)]
  exact C39_noDifferences builtin cls d (Or.inl h5) char (Or.inl ⟨n, h3, by rw [h4]; rfl⟩) s hs

/-- C40, what happens instead: every encoding given by a name which Python does not know, and which is not a predefined CMap, is
WinAnsiEncoding. -/
theorem C40_otherNames (builtin : Builtin) (predefined : Bytes → Option CMap) (cls : Nat) (f : FontDict) (s n : Bytes)
    (h1 : f.toUnicode = none) (h2 : f.encoding = some (.name n)) (h3 : predefined n = none) (h0 : n ≠ [])
    (h4 : NotPython builtin n) (hs : ∀ b ∈ s, b.toNat ≠ 0xA4) :
    fontDecode builtin predefined cls f s = .ok (charsOf winAnsiChar s) := by
  unfold fontDecode cmapEncoding
  simp only [h1, h2, h3, Option.isSome_none, Bool.false_eq_true, if_false]
  rw [if_pos (by simpa [truthyEnc] using h0)]
  unfold encodingDecode lookupDecode
  dsimp only
  unfold NotPython at h4
  rw [h4]
  exact C66_winansi_partial s hs

/-- C40, counterexample: with `/Encoding /MacRomanEncoding` the byte 0x80 is decoded to the Euro sign, and not to Ä. -/
theorem C40_counterexample :
    fontDecode (fun _ => none) (fun _ => none) 9 ⟨none, some (.name b!"MacRomanEncoding"), none⟩ [0x80] = .ok [0x20AC] ∧
    charsOf macRomanChar [0x80] = [0xC4] := by
  refine ⟨?_, by decide⟩
  rw [C40_otherNames (fun _ => none) (fun _ => none) 9 _ [0x80] b!"MacRomanEncoding" rfl rfl rfl (by decide) rfl (by decide)]
  decide

/-! ### C65: ToUnicode comes first -/

/-- C65: a font with a ToUnicode CMap decodes strings of mapped codes by this CMap, whatever its Encoding is (missing, any name, any
dictionary, even one which cannot be used). -/
theorem C65_toUnicode (builtin : Builtin) (predefined : Bytes → Option CMap) (cls : Nat) (enc : Option Obj) (base : Option Bytes)
    (n : Nat) (bs : List Block) (t : Bytes) (hok : ∀ b ∈ bs, b.Ok) (h : CMapText n bs t)
    (segs : List (Bytes × Text)) (hs : Segments (lookup b!"bf" bs) segs) (s : Bytes) (hh : s.flatMap hexPair = segs.flatMap (·.1)) :
    fontDecode builtin predefined cls ⟨some t, enc, base⟩ s = .ok (segs.flatMap (·.2)) := by
  obtain ⟨c, h1, h2⟩ := C36_string n bs t hok h
    (fallbackHex builtin cls (if (match enc with | some (.name n) => predefined n | _ => none).isSome then none else enc)) segs hs s hh
  unfold fontDecode cmapEncoding
  dsimp only
  rw [h1]
  exact h2

/-- The names which the code takes for the standard 14 fonts: one of them, `Helvetica-Qblique`, is misspelled in the code. -/
def standard14 : List Bytes :=
  [b!"Times-Roman", b!"Helvetica", b!"Courier", b!"Symbol", b!"Times-Bold", b!"Helvetica-Bold", b!"Courier-Bold", b!"Times-Italic",
   b!"Helvetica-Qblique", b!"Courier-Oblique", b!"Times-BoldItalic", b!"Helvetica-BoldOblique", b!"Courier-BoldOblique", b!"ZapfDingbats"]

/-- C65: a font without ToUnicode and Encoding which is none of the standard 14 fonts decodes each byte to the character of the same
code. -/
theorem C65_nothing (builtin : Builtin) (predefined : Bytes → Option CMap) (cls : Nat) (base : Option Bytes) (s : Bytes)
    (h : ∀ n ∈ standard14, base ≠ some n) : fontDecode builtin predefined cls ⟨none, none, base⟩ s = .ok (s.map (·.toNat)) := by
  have h : guessEncoding base = none := by
    unfold guessEncoding
    cases base with
    | none => rfl
    | some n =>
      dsimp only
      rw [if_neg]
      intro hn
      exact h n hn rfl
  unfold fontDecode cmapEncoding
  dsimp only
  rw [h]
  rfl

/-- C65, counterexample: Helvetica-Oblique is one of the standard 14 fonts, and byte 92 in it the right quote; it decodes to the control
character 92. -/
theorem C65_counterexample (builtin : Builtin) (predefined : Bytes → Option CMap) (cls : Nat) :
    charsOf winAnsiChar [0x92] = [0x2019] ∧ fontDecode builtin predefined cls ⟨none, none, some b!"Helvetica-Oblique"⟩ [0x92] = .ok [0x92] :=
  ⟨by decide +kernel, C65_nothing _ _ _ _ _ (by decide)⟩

example (s : Bytes) : fontDecode (fun _ => none) (fun _ => none) 9 ⟨none, none, some b!"Verdana"⟩ s = .ok (s.map (·.toNat)) :=
  C65_nothing _ _ _ _ _ (by decide)

/-- C65: a font without ToUnicode and Encoding which is one of the standard 14 fonts decodes by WinAnsiEncoding. -/
theorem C65_standard14 (builtin : Builtin) (predefined : Bytes → Option CMap) (cls : Nat) (base : Bytes) (s : Bytes)
    (h : base ∈ [b!"Times-Roman", b!"Helvetica", b!"Courier", b!"Symbol", b!"Times-Bold", b!"Helvetica-Bold", b!"Courier-Bold", b!"Times-Italic",
      b!"Courier-Oblique", b!"Times-BoldItalic", b!"Helvetica-BoldOblique", b!"Courier-BoldOblique", b!"ZapfDingbats"])
    (h4 : NotPython builtin b!"Identity-H") (hs : ∀ b ∈ s, b.toNat ≠ 0xA4) :
    fontDecode builtin predefined cls ⟨none, none, some base⟩ s = .ok (charsOf winAnsiChar s) := by
  have hg : guessEncoding (some base) = some (.name b!"Identity-H") := by
    unfold guessEncoding
    dsimp only
    rw [if_pos]
    simp only [List.mem_cons, List.not_mem_nil, or_false] at h ⊢
    rcases h with h | h | h | h | h | h | h | h | h | h | h | h | h <;> simp [h]
  unfold fontDecode cmapEncoding
  dsimp only
  rw [hg]
  simp only [Option.isSome_none, Bool.false_eq_true, if_false]
  rw [if_pos (by decide)]
  unfold encodingDecode lookupDecode
  dsimp only
  unfold NotPython at h4
  rw [h4]
  exact C66_winansi_partial s hs

example : fontDecode (fun _ => none) (fun _ => none) 9 ⟨some exText, some (.name b!"MacRomanEncoding"), none⟩ [0, 0x24, 0, 0x62] =
    .ok [0x41, 0x66, 0x66] := by
  refine C65_toUnicode _ _ _ _ _ 9 exBlocks exText exOk exCMap [(b!"0024", [0x41]), (b!"0062", [0x66, 0x66])] ?_ _ (by decide)
  intro p hp
  simp only [List.mem_cons, List.not_mem_nil, or_false] at hp
  rcases hp with rfl | rfl
  · exact ⟨by unfold UpHex; decide, by decide +kernel, Or.inr (by decide +kernel)⟩
  · exact ⟨by unfold UpHex; decide, by decide +kernel, Or.inr (by decide +kernel)⟩

/-! ### C67: glyph names -/

theorem split_part {p : Bytes} (h : 95 ∉ p) : splitUnderscore p = [p] := by
  induction p with
  | nil => rfl
  | cons c p ih =>
    rw [List.mem_cons, not_or] at h
    rw [splitUnderscore, if_neg (fun e => h.1 e.symm), ih h.2]

theorem split_cons {p r : Bytes} (h : 95 ∉ p) : splitUnderscore (p ++ 95 :: r) = p :: splitUnderscore r := by
  induction p with
  | nil => rw [List.nil_append, splitUnderscore, if_pos rfl]
  | cons c p ih =>
    rw [List.mem_cons, not_or] at h
    rw [List.cons_append, splitUnderscore, if_neg (fun e => h.1 e.symm), ih h.2]

theorem split_join {ps : List Bytes} (h0 : ps ≠ []) (h : ∀ p ∈ ps, 95 ∉ p) : splitUnderscore (joinUnderscore ps) = ps := by
  induction ps with
  | nil => exact absurd rfl h0
  | cons p ps ih =>
    cases ps with
    | nil => exact split_part (h p List.mem_cons_self)
    | cons q ps =>
      rw [joinUnderscore, split_cons (h p List.mem_cons_self), ih (by simp) (fun x hx => h x (List.mem_cons_of_mem _ hx))]
      simp

theorem join_nodot {ps : List Bytes} (h : ∀ p ∈ ps, 46 ∉ p) : 46 ∉ joinUnderscore ps := by
  induction ps with
  | nil => simp [joinUnderscore]
  | cons p ps ih =>
    cases ps with
    | nil => exact h p List.mem_cons_self
    | cons q ps =>
      rw [joinUnderscore, List.mem_append, List.mem_cons]
      · rintro (h1 | h1 | h1)
        · exact h p List.mem_cons_self h1
        · cases h1
        · exact ih (fun x hx => h x (List.mem_cons_of_mem _ hx)) h1
      · simp

theorem takeWhile_dot {p s : Bytes} (h : 46 ∉ p) (hs : s = [] ∨ s.head? = some 46) : (p ++ s).takeWhile (· ≠ 46) = p := by
  rw [List.takeWhile_append_of_pos (by
    intro c hc
    simp only [ne_eq, decide_eq_true_eq]
    intro e
    exact h (e ▸ hc))]
  rcases hs with rfl | hs
  · simp
  · cases s with
    | nil => cases hs
    | cons c s =>
      simp only [List.head?_cons, Option.some.injEq] at hs
      subst hs
      simp

theorem glyphs_fold (z : Bool) (ps : List Bytes) : ∀ acc, ps.foldl (fun res g => res ++ glyphVal z g) acc = acc ++ ps.flatMap (glyphVal z) := by
  induction ps with
  | nil => intro acc; simp
  | cons p ps ih => intro acc; rw [List.foldl_cons, ih]; simp

theorem glyph_one (z : Bool) {p : Bytes} (h1 : 95 ∉ p) (h2 : 46 ∉ p) : glyphText z p = glyphVal z p := by
  unfold glyphText
  have := takeWhile_dot h2 (Or.inl rfl)
  rw [List.append_nil] at this
  rw [this, split_part h1]
  rfl

/-- C67: a name of several components joined by underscores, with or without a suffix after a dot, stands for the texts of the
components. -/
theorem C67_components (z : Bool) (ps : List Bytes) (suffix : Bytes) (h0 : ps ≠ []) (h : ∀ p ∈ ps, 95 ∉ p ∧ 46 ∉ p)
    (hs : suffix = [] ∨ suffix.head? = some 46) : glyphText z (joinUnderscore ps ++ suffix) = ps.flatMap (glyphText z) := by
  have e : ps.flatMap (glyphText z) = ps.flatMap (glyphVal z) := by
    clear h0
    induction ps with
    | nil => rfl
    | cons p ps ih =>
      rw [List.flatMap_cons, List.flatMap_cons, ih (fun x hx => h x (List.mem_cons_of_mem _ hx)),
        glyph_one z (h p List.mem_cons_self).1 (h p List.mem_cons_self).2]
  rw [e]
  unfold glyphText
  rw [takeWhile_dot (join_nodot (fun p hp => (h p hp).2)) hs, split_join h0 (fun p hp => (h p hp).1), glyphs_fold]
  rfl

example : glyphText true b!"f_f_i.alt" = [0x66, 0x66, 0x69] := by
  have := C67_components true [b!"f", b!"f", b!"i"] b!".alt" (by decide) (by decide) (Or.inr rfl)
  have e : joinUnderscore [b!"f", b!"f", b!"i"] ++ b!".alt" = b!"f_f_i.alt" := by decide
  rw [e] at this
  rw [this]
  decide +kernel

theorem up_hex {c : Byte} (h : c ∈ (b!"0123456789ABCDEF")) :
    (hexVal? c).isSome = true ∧ isPySpace c = false ∧ c ≠ 45 ∧ c ≠ 43 ∧ c ≠ 120 ∧ c ≠ 88 ∧ c ≠ 95 ∧ c ≠ 46 := by
  have key : ∀ x : Byte, (b!"0123456789ABCDEF").contains x = true → (hexVal? x).isSome = true ∧ isPySpace x = false ∧ x ≠ 45 ∧ x ≠ 43 ∧ x ≠ 120 ∧ x ≠ 88 ∧
    x ≠ 95 ∧ x ≠ 46 := forall_u8 _ (by decide +kernel)
  exact key c (List.contains_iff_mem.mpr h)

theorem dropWhile_up {h : Bytes} (hu : UpHex h) : h.dropWhile isPySpace = h := by
  cases h with
  | nil => rfl
  | cons c h => rw [List.dropWhile_cons, (up_hex (hu c List.mem_cons_self)).2.1]; rfl

theorem pyHexInt_up {h : Bytes} (h0 : h ≠ []) (hu : UpHex h) : pyHexInt h = some (hexValue h : Int) := by
  unfold pyHexInt
  have hr : UpHex h.reverse := fun c hc => hu c (List.mem_reverse.mp hc)
  rw [dropWhile_up hu, dropWhile_up hr, List.reverse_reverse]
  cases h with
  | nil => exact absurd rfl h0
  | cons c r =>
    obtain ⟨_, _, a1, a2, _⟩ := up_hex (hu c List.mem_cons_self)
    have e1 : ¬ ((c :: r).head? = some 45 ∨ (c :: r).head? = some 43) := by simp [a1, a2]
    have e2 : ¬ ((c :: r).take 2 = b!"0x" ∨ (c :: r).take 2 = b!"0X") := by
      cases r with
      | nil => simp
      | cons d r =>
        obtain ⟨_, _, _, _, a3, a4, _⟩ := up_hex (hu d (List.mem_cons_of_mem _ List.mem_cons_self))
        have a3' : d ≠ 120 := a3
        simp [a3', a4]
    dsimp only
    rw [if_neg e1, if_neg e2]
    unfold pyHexDigits
    rw [hexNat_val h0 hu]
    dsimp only
    rw [if_neg (by simp [a1])]

theorem chrHex_up {h : Bytes} (h0 : h ≠ []) (hu : UpHex h) (hv : hexValue h ≤ 0x10FFFF) : chrHex h = some (hexValue h) := by
  unfold chrHex
  rw [pyHexInt_up h0 hu]
  dsimp only
  rw [if_pos (by omega)]
  rfl

theorem uniChars_step {a b c d : Byte} {r : Bytes} {x : Nat} {xs : Text} (h1 : chrHex [a, b, c, d] = some x) (h2 : uniChars r = some xs) :
    uniChars (a :: b :: c :: d :: r) = some (x :: xs) := by
  have e : uniChars (a :: b :: c :: d :: r) = (match chrHex [a, b, c, d], uniChars r with | some x, some xs => some (x :: xs) | _, _ => none) := rfl
  rw [e, h2]
  generalize chrHex [a, b, c, d] = o at h1
  subst h1
  rfl

theorem four {g : Bytes} (h1 : g.length = 4) : ∃ a b c d, g = [a, b, c, d] := by
  rcases g with _ | ⟨a, _ | ⟨b, _ | ⟨c, _ | ⟨d, _ | ⟨e, g⟩⟩⟩⟩⟩
  · cases h1
  · cases h1
  · cases h1
  · cases h1
  · exact ⟨a, b, c, d, rfl⟩
  · simp only [List.length_cons] at h1
    omega

theorem uniChars_up {gs : List Bytes} (h : ∀ g ∈ gs, g.length = 4 ∧ UpHex g) : uniChars gs.flatten = some (gs.map hexValue) := by
  induction gs with
  | nil => rfl
  | cons g gs ih =>
    obtain ⟨h1, h2⟩ := h g List.mem_cons_self
    have ih := ih (fun x hx => h x (List.mem_cons_of_mem _ hx))
    obtain ⟨a, b, c, d, rfl⟩ := four h1
    have lt : hexValue [a, b, c, d] ≤ 0x10FFFF := by
      have lt := hexValue_lt h2
      simp only [List.length_cons, List.length_nil, Nat.reduceAdd, Nat.reducePow] at lt
      omega
    rw [List.flatten_cons, List.map_cons]
    exact uniChars_step (chrHex_up (List.cons_ne_nil _ _) h2 lt) ih

theorem flatten_len {gs : List Bytes} (h : ∀ g ∈ gs, g.length = 4 ∧ UpHex g) : gs.flatten.length = 4 * gs.length ∧ UpHex gs.flatten := by
  induction gs with
  | nil => exact ⟨rfl, by intro c hc; cases hc⟩
  | cons g gs ih =>
    obtain ⟨h1, h2⟩ := h g List.mem_cons_self
    obtain ⟨i1, i2⟩ := ih (fun x hx => h x (List.mem_cons_of_mem _ hx))
    rw [List.flatten_cons]
    refine ⟨by rw [List.length_append, List.length_cons]; omega, ?_⟩
    intro c hc
    rcases List.mem_append.mp hc with hc | hc
    · exact h2 c hc
    · exact i2 c hc

theorem glyphVal_spells (z : Bool) {g : Bytes} (h : spells g = true) : glyphVal z g =
    if g.take 3 = b!"uni" ∧ (g.length - 3) % 4 = 0 then (uniChars (g.drop 3)).getD []
    else if g.take 1 = b!"u" ∧ 5 ≤ g.length ∧ g.length ≤ 7 then (match chrHex (g.drop 1) with | some c => [c] | none => [])
    else [] := by
  unfold glyphVal
  rw [spells_none agl_ordered agl_spells h, spells_none zapf_ordered zapf_spells h]
  cases z <;> rfl

/-- C67: `uni` followed by groups of four hexadecimal digits stands for the characters with these codes, with both kinds of
codecs. -/
theorem C67_uni (z : Bool) (gs : List Bytes) (h : ∀ g ∈ gs, g.length = 4 ∧ UpHex g) :
    glyphText z (b!"uni" ++ gs.flatten) = gs.map hexValue := by
  obtain ⟨h1, h2⟩ := flatten_len h
  have hm : ∀ x : Byte, x ≠ 117 ∧ x ≠ 110 ∧ x ≠ 105 → (∀ c ∈ gs.flatten, c ≠ x) → x ∉ b!"uni" ++ gs.flatten := by
    intro x hx hc hmem
    rcases List.mem_append.mp hmem with hmem | hmem
    · simp only [List.mem_cons, List.not_mem_nil, or_false] at hmem
      rcases hmem with e | e | e
      · exact hx.1 e
      · exact hx.2.1 e
      · exact hx.2.2 e
    · exact hc x hmem rfl
  rw [glyph_one z (hm 95 (by decide) (fun c hc => (up_hex (h2 c hc)).2.2.2.2.2.2.1))
    (hm 46 (by decide) (fun c hc => (up_hex (h2 c hc)).2.2.2.2.2.2.2)), glyphVal_spells]
  · rw [if_pos ⟨rfl, by
      rw [List.length_append, h1]
      show (3 + 4 * gs.length - 3) % 4 = 0
      omega⟩]
    show (uniChars gs.flatten).getD [] = _
    rw [uniChars_up h]
    rfl
  · unfold spells
    rw [Bool.or_eq_true]
    left
    rw [Bool.and_eq_true]
    refine ⟨by simp, ?_⟩
    show gs.flatten.all _ = true
    rw [List.all_eq_true]
    exact fun c hc => (up_hex (h2 c hc)).1

/-- C67: `u` followed by four to six hexadecimal digits stands for the character with this code. -/
theorem C67_u (z : Bool) (h : Bytes) (h1 : 4 ≤ h.length) (h2 : h.length ≤ 6) (hu : UpHex h) (hv : hexValue h ≤ 0x10FFFF) :
    glyphText z (b!"u" ++ h) = [hexValue h] := by
  have hm : ∀ x : Byte, x ≠ 117 → (∀ c ∈ h, c ≠ x) → x ∉ b!"u" ++ h := by
    intro x hx hc hmem
    rcases List.mem_append.mp hmem with hmem | hmem
    · simp only [List.mem_cons, List.not_mem_nil, or_false] at hmem
      exact hx hmem
    · exact hc x hmem rfl
  rw [glyph_one z (hm 95 (by decide) (fun c hc => (up_hex (hu c hc)).2.2.2.2.2.2.1))
    (hm 46 (by decide) (fun c hc => (up_hex (hu c hc)).2.2.2.2.2.2.2)), glyphVal_spells]
  · have hne : h ≠ [] := by intro e; rw [e] at h1; simp at h1
    rw [if_neg, if_pos]
    · show (match chrHex h with | some c => [c] | none => []) = _
      rw [chrHex_up hne hu hv]
    · refine ⟨rfl, ?_, ?_⟩ <;> rw [List.length_append] <;> simp only [List.length_cons, List.length_nil] <;> omega
    · rintro ⟨e, _⟩
      cases h with
      | nil => exact hne rfl
      | cons c h =>
        have : c = 110 := by simpa using (List.cons.inj (List.cons.inj e).2).1
        have := hu c List.mem_cons_self
        rw [‹c = 110›] at this
        revert this
        decide
  · unfold spells
    rw [Bool.or_eq_true]
    right
    rw [Bool.and_eq_true, Bool.and_eq_true]
    refine ⟨⟨by simp, by simpa using h1⟩, ?_⟩
    show h.all _ = true
    rw [List.all_eq_true]
    exact fun c hc => (up_hex (hu c hc)).1

example : glyphText true b!"uni20AC0308" = [0x20AC, 0x308] := C67_uni true [b!"20AC", b!"0308"] (by unfold UpHex; decide)
example : glyphText false b!"u1F600" = [0x1F600] := C67_u false b!"1F600" (by decide) (by decide) (by unfold UpHex; decide) (by decide)

/-- C67: a name of the Adobe Glyph List, not in that of ZapfDingbats, stands for the text given there. -/
theorem C67_list (z : Bool) (n : Bytes) (v : Text) (h1 : 95 ∉ n) (h2 : 46 ∉ n) (h : (nameKey n, v) ∈ aglTree.toList)
    (hz : z = false ∨ ∀ w, (nameKey n, w) ∉ zapfTree.toList) : glyphText z n = v := by
  rw [glyph_one z h1 h2]
  unfold glyphVal
  have : (if z then zapfTree.get (nameKey n) else none) = none := by
    rcases hz with rfl | hz
    · rfl
    · cases hg : zapfTree.get (nameKey n) with
      | none => cases z <;> rfl
      | some w => exact absurd ((tree_get zapf_ordered _ _).mp hg) (hz w)
  rw [this, (tree_get agl_ordered _ _).mpr h]

example : glyphText true b!"Euro" = [0x20AC] := by decide +kernel

end PdfReader
