/-
  C37-C40, C64-C67: text encodings.
-/
import Verif.Lemmas.Codecs
import Verif.Props.CMap

namespace PdfReader

open Spec

/-! ### C37 -/

/-- C37: what a string decodes to (text or exception) is put together from its parts: the text of `s ++ t` is the text of `s` followed
by that of `t`, and the first exception is the result. -/
theorem C37_concat (c : Codec) (s t : Bytes) :
    (codecDecode c (s ++ t) []).1 = (codecDecode c s []).1.bind (fun a => (codecDecode c t []).1.bind (fun b => .ok (a ++ b))) := by
  rw [codecDecode_fresh, codecDecode_fresh, codecDecode_fresh, decodePure_append]

/-- C37: if every byte of a string decodes, then the string decodes to the concatenation. -/
theorem C37_bytewise (c : Codec) (f : Byte → Text) (s : Bytes) (h : ∀ x ∈ s, (codecDecode c [x] []).1 = .ok (f x)) :
    (codecDecode c s []).1 = .ok (s.flatMap f) := by
  rw [codecDecode_fresh]
  refine decodePure_all ?_
  intro x hx
  have := h x hx
  rw [codecDecode_fresh, decodePure_cons] at this
  cases hb : bytePure c x with
  | error e => rw [hb] at this; cases this
  | ok g =>
    rw [hb] at this
    have e : Except.ok (g ++ []) = (Except.ok (f x) : Res Text) := this
    rw [List.append_nil] at e
    exact e

example : (codecDecode winAnsi [0x80, 0x41] []).1 = .ok [0x20AC, 0x41] := by decide +kernel

/-! ### C64: the glyph cache -/

/-- A sequence of decodings, each with the cache left by the one before. -/
def decodeAll : List (Codec × Bytes) → GlyphCache → GlyphCache
  | [], cache => cache
  | (c, s) :: rest, cache => decodeAll rest (codecDecode c s cache).2

theorem decodeAll_ok {zapfOf : Nat → Bool} (hist : List (Codec × Bytes)) (h : ∀ p ∈ hist, p.1.zapf = zapfOf p.1.cls) :
    ∀ cache, CacheOk zapfOf cache → CacheOk zapfOf (decodeAll hist cache) := by
  induction hist with
  | nil => intro _ h; exact h
  | cons p hist ih =>
    intro cache hc
    exact ih (fun q hq => h q (List.mem_cons_of_mem _ hq)) _ (codecDecode_pure (h p List.mem_cons_self) p.2 hc).2

/-- C64: whatever was decoded before, with whichever codecs, a string decodes to the same as with a fresh process. `zapfOf` says
for every class whether it uses the ZapfDingbats list: classes do not change this. -/
theorem C64_history (zapfOf : Nat → Bool) (hist : List (Codec × Bytes)) (h : ∀ p ∈ hist, p.1.zapf = zapfOf p.1.cls)
    (c : Codec) (hc : c.zapf = zapfOf c.cls) (s : Bytes) :
    (codecDecode c s (decodeAll hist [])).1 = (codecDecode c s []).1 := by
  rw [codecDecode_fresh]
  exact (codecDecode_pure hc s (decodeAll_ok hist h [] (by intro e he; cases he))).1

example : (codecDecode winAnsi [0x80] (decodeAll [(standard, [0xA1]), (winAnsi, [0x80, 0x81])] [])).1 = .ok [0x20AC] := by
  rw [C64_history (fun _ => true) _ (by
    intro p hp
    simp only [List.mem_cons, List.not_mem_nil, or_false] at hp
    rcases hp with rfl | rfl <;> rfl) winAnsi rfl]
  decide +kernel

/-! ### C66: the tables of the standard -/

/-- The check for one byte. -/
def tableByte (c : Codec) (char : Nat → Option Nat) (bad : List Nat) (b : Byte) : Bool :=
  bad.contains b.toNat || byteIs c b ((char b.toNat).getD b.toNat)

theorem table_codec {c : Codec} {char : Nat → Option Nat} {bad : List Nat} (h : ∀ b, tableByte c char bad b = true) (s : Bytes)
    (hs : ∀ b ∈ s, b.toNat ∉ bad) : decodePure c s = .ok (charsOf char s) := by
  have := decodePure_all (c := c) (f := fun b => [(char b.toNat).getD b.toNat]) (s := s) (by
    intro x hx
    have := h x
    unfold tableByte at this
    rw [Bool.or_eq_true] at this
    rcases this with h | h
    · exact absurd (List.contains_iff_mem.mp h) (hs x hx)
    · exact byteIs_eq h)
  rw [this]
  unfold charsOf
  congr 1
  induction s with
  | nil => rfl
  | cons x s ih => rw [List.flatMap_cons, List.map_cons, ih (fun b hb => hs b (List.mem_cons_of_mem _ hb)) (decodePure_all (fun y hy => by
      have := h y
      unfold tableByte at this
      rw [Bool.or_eq_true] at this
      rcases this with h | h
      · exact absurd (List.contains_iff_mem.mp h) (hs y (List.mem_cons_of_mem _ hy))
      · exact byteIs_eq h))]; rfl

theorem winAnsi_table : ∀ b, tableByte winAnsi winAnsiChar [0xA4] b = true := forall_u8 _ (by decide +kernel)
theorem standard_table : ∀ b, tableByte standard standardChar [0xA8, 0xB7] b = true := forall_u8 _ (by decide +kernel)
theorem macRoman_table : ∀ b, tableByte macRoman macRomanChar [0xDB] b = true := forall_u8 _ (by decide +kernel)
theorem pdfDoc_table : ∀ b, tableByte pdfDoc pdfDocChar [0xA4] b = true := forall_u8 _ (by decide +kernel)

/-- C66, for WinAnsiEncoding without the currency sign. -/
theorem C66_winansi_partial (s : Bytes) (h : ∀ b ∈ s, b.toNat ≠ 0xA4) : (codecDecode winAnsi s []).1 = .ok (charsOf winAnsiChar s) := by
  rw [codecDecode_fresh]
  exact table_codec winAnsi_table s (by simpa using h)

/-- C66, for StandardEncoding without the currency sign and the bullet. -/
theorem C66_standard_partial (s : Bytes) (h : ∀ b ∈ s, b.toNat ≠ 0xA8 ∧ b.toNat ≠ 0xB7) :
    (codecDecode standard s []).1 = .ok (charsOf standardChar s) := by
  rw [codecDecode_fresh]
  exact table_codec standard_table s (by simpa using h)

/-- C66, for MacRomanEncoding without the currency sign. -/
theorem C66_macroman_partial (s : Bytes) (h : ∀ b ∈ s, b.toNat ≠ 0xDB) : (codecDecode macRoman s []).1 = .ok (charsOf macRomanChar s) := by
  rw [codecDecode_fresh]
  exact table_codec macRoman_table s (by simpa using h)

/-- C66, for PDFDocEncoding without the currency sign. -/
theorem C66_pdfdoc_partial (s : Bytes) (h : ∀ b ∈ s, b.toNat ≠ 0xA4) : (codecDecode pdfDoc s []).1 = .ok (charsOf pdfDocChar s) := by
  rw [codecDecode_fresh]
  exact table_codec pdfDoc_table s (by simpa using h)

/-- C66, counterexample: in every built-in encoding the currency sign decodes to nothing, and so does the bullet of
StandardEncoding (the glyph names of the tables, `currency1` and `bullet (3)`, are not in the glyph list). -/
theorem C66_counterexample :
    (codecDecode winAnsi [0xA4] []).1 = .ok [] ∧ (codecDecode pdfDoc [0xA4] []).1 = .ok [] ∧ (codecDecode macRoman [0xDB] []).1 = .ok [] ∧
    (codecDecode standard [0xA8] []).1 = .ok [] ∧ (codecDecode standard [0xB7] []).1 = .ok [] ∧
    winAnsiChar 0xA4 = some 0xA4 ∧ pdfDocChar 0xA4 = some 0xA4 ∧ macRomanChar 0xDB = some 0xA4 ∧ standardChar 0xA8 = some 0xA4 ∧
    standardChar 0xB7 = some 0x2022 := by
  decide +kernel

/-! ### C38: round trips -/

/-- The check for one byte: its character, unless excepted, is encoded to a byte which decodes to it. -/
def roundByte (c : Codec) (char : Nat → Option Nat) (bad : List Nat) (b : Byte) : Bool :=
  match char b.toNat with
  | none => true
  | some x => bad.contains x || byteIs c ((assoc x c.enc).getD (latin1Encode x)) x

theorem round_codec {c : Codec} {char : Nat → Option Nat} {bad : List Nat} (h : ∀ b, roundByte c char bad b = true) (t : Text)
    (ht : ∀ x ∈ t, x ∉ bad ∧ ∃ b : Byte, char b.toNat = some x) : (codecDecode c (codecEncode c t) []).1 = .ok t := by
  rw [codecDecode_fresh]
  refine roundtrip_all ?_
  intro x hx
  obtain ⟨h1, b, hb⟩ := ht x hx
  have := h b
  unfold roundByte at this
  rw [hb] at this
  simp only [Bool.or_eq_true] at this
  rcases this with h | h
  · exact absurd (List.contains_iff_mem.mp h) h1
  · exact byteIs_eq h

theorem winAnsi_round : ∀ b, roundByte winAnsi winAnsiChar [0xA4, 0xA0] b = true := forall_u8 _ (by decide +kernel)
theorem standard_round : ∀ b, roundByte standard standardChar [0xA4, 0x2022, 0x2DA] b = true := forall_u8 _ (by decide +kernel)
theorem macRoman_round : ∀ b, roundByte macRoman macRomanChar [0xA4, 0xB0, 0xA0, 0x2DA] b = true := forall_u8 _ (by decide +kernel)
theorem pdfDoc_round : ∀ b, roundByte pdfDoc pdfDocChar [0xA4, 0xB0, 0x2DA] b = true := forall_u8 _ (by decide +kernel)

/-- C38: texts of characters of WinAnsiEncoding other than the currency sign and the no-break space survive encoding and
decoding. -/
theorem C38_winansi (t : Text) (h : ∀ x ∈ t, x ∉ [0xA4, 0xA0] ∧ ∃ b : Byte, winAnsiChar b.toNat = some x) :
    (codecDecode winAnsi (codecEncode winAnsi t) []).1 = .ok t := round_codec winAnsi_round t h

/-- C38 for StandardEncoding; except the currency sign, the bullet and the ring. -/
theorem C38_standard (t : Text) (h : ∀ x ∈ t, x ∉ [0xA4, 0x2022, 0x2DA] ∧ ∃ b : Byte, standardChar b.toNat = some x) :
    (codecDecode standard (codecEncode standard t) []).1 = .ok t := round_codec standard_round t h

/-- C38 for MacRomanEncoding; except the currency sign, the degree sign, the ring and the no-break space. -/
theorem C38_macroman (t : Text) (h : ∀ x ∈ t, x ∉ [0xA4, 0xB0, 0xA0, 0x2DA] ∧ ∃ b : Byte, macRomanChar b.toNat = some x) :
    (codecDecode macRoman (codecEncode macRoman t) []).1 = .ok t := round_codec macRoman_round t h

/-- C38 for PDFDocEncoding; except the currency sign, the degree sign and the ring. -/
theorem C38_pdfdoc (t : Text) (h : ∀ x ∈ t, x ∉ [0xA4, 0xB0, 0x2DA] ∧ ∃ b : Byte, pdfDocChar b.toNat = some x) :
    (codecDecode pdfDoc (codecEncode pdfDoc t) []).1 = .ok t := round_codec pdfDoc_round t h

example : (codecDecode pdfDoc (codecEncode pdfDoc [0x20AC, 0x41, 0xFB01, 0x02D8]) []).1 = .ok [0x20AC, 0x41, 0xFB01, 0x02D8] := by
  refine C38_pdfdoc _ ?_
  intro x hx
  simp only [List.mem_cons, List.not_mem_nil, or_false] at hx
  rcases hx with rfl | rfl | rfl | rfl
  · exact ⟨by decide, 0xA0, by decide⟩
  · exact ⟨by decide, 0x41, by decide⟩
  · exact ⟨by decide, 0x93, by decide⟩
  · exact ⟨by decide, 0x18, by decide⟩

/-- C38: the excepted characters do not survive. -/
theorem C38_exceptions :
    (∀ x ∈ [0xA4, 0xA0], (codecDecode winAnsi (codecEncode winAnsi [x]) []).1 ≠ .ok [x]) ∧
    (∀ x ∈ [0xA4, 0x2022, 0x2DA], (codecDecode standard (codecEncode standard [x]) []).1 ≠ .ok [x]) ∧
    (∀ x ∈ [0xA4, 0xB0, 0xA0, 0x2DA], (codecDecode macRoman (codecEncode macRoman [x]) []).1 ≠ .ok [x]) ∧
    (∀ x ∈ [0xA4, 0xB0, 0x2DA], (codecDecode pdfDoc (codecEncode pdfDoc [x]) []).1 ≠ .ok [x]) := by
  have key : ∀ (c : Codec) (x : Nat), (match (codecDecode c (codecEncode c [x]) []).1 with | .ok t => t == [x] | .error _ => false) = false →
      (codecDecode c (codecEncode c [x]) []).1 ≠ .ok [x] := by
    intro c x h e
    rw [e] at h
    simp at h
  refine ⟨?_, ?_, ?_, ?_⟩ <;>
  · intro x hx
    refine key _ x ?_
    revert x
    decide +kernel

end PdfReader
