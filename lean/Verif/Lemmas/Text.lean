/-
  What strings mean in fonts: the decoders agree with `Spec/Text.lean`.
-/
import Verif.Spec.Text
import Verif.Props.Fonts
import Verif.Props.CMap
import Verif.Model.View

namespace PdfReader

open Spec

variable {builtin : Builtin} {predefined : Bytes → Option CMap}

theorem hexPair_digits (c : Byte) : ∃ x y, hexPair c = [x, y] ∧ ∃ a b, hexVal? x = some a ∧ hexVal? y = some b ∧ UInt8.ofNat (16 * a + b) = c := by
  have := forall_u8 (fun c => (match hexPair c with
    | [x, y] => (match hexVal? x, hexVal? y with | some a, some b => decide (UInt8.ofNat (16 * a + b) = c) | _, _ => false)
    | _ => false) = true) (by decide +kernel) c
  unfold hexPair at this ⊢
  dsimp only at this
  refine ⟨_, _, rfl, ?_⟩
  split at this
  · rename_i a b e1 e2
    exact ⟨a, b, e1, e2, of_decide_eq_true this⟩
  · cases this

/-- The bytes of a hexadecimal string. -/
theorem hexBytes_pairs (s : Bytes) : hexBytes (s.flatMap hexPair) = .ok s := by
  show fallbackHex.ahxBytes _ = _
  induction s with
  | nil => rfl
  | cons c s ih =>
    obtain ⟨x, y, e, a, b, e1, e2, e3⟩ := hexPair_digits c
    rw [List.flatMap_cons, e]
    show fallbackHex.ahxBytes (x :: y :: s.flatMap hexPair) = _
    unfold fallbackHex.ahxBytes
    rw [e1, e2, ih]
    dsimp only
    rw [e3]

theorem glyphPart_text {n : Bytes} {t : Text} (h : GlyphPart n t) (h1 : 95 ∉ n) (h2 : 46 ∉ n) : glyphText true n = t := by
  cases h with
  | listed n t h hz => exact C67_list true n t h1 h2 h (Or.inr hz)
  | uni gs h => exact C67_uni true gs h
  | u h a b c d => exact C67_u true h a b c d

theorem glyph_text {n : Bytes} {t : Text} (h : Glyph n t) : glyphText true n = t := by
  obtain ⟨ps, suffix, h0, h1, h2⟩ := h
  rw [C67_components true (ps.map (·.1)) suffix (by simpa using h0) (fun p hp => by
    obtain ⟨q, hq, rfl⟩ := List.mem_map.mp hp
    exact ⟨(h1 q hq).1, (h1 q hq).2.1⟩) h2]
  clear h0 h2
  induction ps with
  | nil => rfl
  | cons p ps ih =>
    obtain ⟨a, b, c⟩ := h1 p List.mem_cons_self
    rw [List.map_cons, List.flatMap_cons, List.flatMap_cons, glyphPart_text c a b, ih fun q hq => h1 q (List.mem_cons_of_mem _ hq)]

theorem flatMap_same {α β : Type} {f g : α → List β} {s : List α} (h : ∀ x ∈ s, f x = g x) : s.flatMap f = s.flatMap g := by
  induction s with
  | nil => rfl
  | cons x s ih => rw [List.flatMap_cons, List.flatMap_cons, h x List.mem_cons_self, ih fun y hy => h y (List.mem_cons_of_mem _ hy)]

/-- An encoding dictionary. -/
theorem dict_text {d : List (Bytes × Obj)} {char : Nat → Option Nat} {runs : List DiffRun} {s : Bytes} {text : Byte → Text} (cls : Nat)
    (hb : BaseChars d char) (hr : Differs d runs) (h1 : ∀ b ∈ s, ∀ n, diffName runs (b.toNat : Int) = some n → Glyph n (text b))
    (h2 : ∀ b ∈ s, diffName runs (b.toNat : Int) = none → b.toNat ∉ [0xA4, 0xA8, 0xB7, 0xDB] ∧ text b = [(char b.toNat).getD b.toNat]) :
    (encodingDecode builtin cls (.dict d) s []).1 = .ok (s.flatMap text) := by
  rcases hr with hr | ⟨hr, rfl⟩
  · rw [C39_tables builtin cls d runs hr char hb s fun b hbs hn => (h2 b hbs hn).1]
    congr 1
    refine flatMap_same fun b hbs => ?_
    unfold diffText
    split
    · rename_i n e
      exact glyph_text (h1 b hbs n e)
    · rename_i e
      exact (h2 b hbs e).2.symm
  · rw [C39_noDifferences builtin cls d hr char hb s fun b hbs => (h2 b hbs rfl).1]
    congr 1
    rw [flatMap_same (g := fun b => [(char b.toNat).getD b.toNat]) fun b hbs => (h2 b hbs rfl).2]
    unfold charsOf
    clear h1 h2
    induction s with
    | nil => rfl
    | cons b s ih => rw [List.map_cons, List.flatMap_cons, ih]; rfl

/-- Without a CMap only the bytes of the string matter. -/
theorem text_bytes {fd : FontDict} {o : Obj} {s : Bytes} (h : BytesAre o s) {e : Option Obj} (hc : cmapEncoding predefined fd = .ok (none, e)) :
    fontText builtin predefined fd o = fontDecode builtin predefined 0 fd s := by
  cases h with
  | str s => rfl
  | hex s =>
    show fontDecodeHex builtin predefined 0 fd _ = _
    unfold fontDecodeHex
    rw [hc]
    dsimp only
    rw [hexBytes_pairs]
    rfl

theorem cmapEncoding_none {fd : FontDict} (h : fd.toUnicode = none) (hp : ∀ n, fd.encoding = some (.name n) → predefined n = none) :
    ∃ e, cmapEncoding predefined fd = .ok (none, e) := by
  obtain ⟨u, enc, base⟩ := fd
  cases h
  unfold cmapEncoding
  dsimp only
  cases enc with
  | none => exact ⟨_, rfl⟩
  | some o =>
    cases o with
    | name n =>
      dsimp only
      simp only [hp n rfl]
      exact ⟨_, rfl⟩
    | _ => exact ⟨_, rfl⟩

theorem means_text {fd : FontDict} {o : Obj} {t : Text} (h : Means builtin predefined fd o t) : fontText builtin predefined fd o = .ok t := by
  cases h with
  | toUnicode ct n bs s segs h1 h2 h3 h4 h5 h6 =>
    obtain ⟨u, enc, base⟩ := fd
    cases h1
    cases h4 with
    | str s => exact C65_toUnicode builtin predefined 0 enc base n bs ct h3 h2 segs h5 s h6
    | hex s =>
      rw [h6]
      show fontDecodeHex builtin predefined 0 _ _ = _
      obtain ⟨c, e1, e2⟩ := C36_hexstring n bs ct h3 h2
        (fallbackHex builtin 0 (if (match enc with | some (.name n) => predefined n | _ => none).isSome then none else enc)) segs h5
      unfold fontDecodeHex cmapEncoding
      dsimp only
      rw [e1]
      exact e2
  | winAnsi s h1 h2 h3 h4 h5 h6 =>
    obtain ⟨e, he⟩ := cmapEncoding_none (predefined := predefined) h1 (fun n hn => by rw [h2] at hn; cases hn; exact h3)
    rw [text_bytes h5 he]
    exact C40_winansi_partial builtin predefined 0 fd s h1 h2 h3 h4 h6
  | dict d char runs s text h1 h2 h3 h4 h5 h6 h7 h8 =>
    obtain ⟨e, he⟩ := cmapEncoding_none (predefined := predefined) h1 (fun n hn => by rw [h2] at hn; cases hn)
    rw [text_bytes h6 he]
    unfold fontDecode cmapEncoding
    simp only [h1, h2, Option.isSome_none, Bool.false_eq_true, if_false]
    rw [if_pos (by simpa [truthyEnc] using h3)]
    exact dict_text 0 h4 h5 h7 h8
  | standardFont n s h1 h2 h3 h4 h5 h6 h7 =>
    obtain ⟨e, he⟩ := cmapEncoding_none (predefined := predefined) h1 (fun n hn => by rw [h2] at hn; cases hn)
    rw [text_bytes h6 he]
    obtain ⟨u, enc, base⟩ := fd
    cases h1
    cases h2
    cases h3
    exact C65_standard14 builtin predefined 0 n s h4 h5 h7
  | nothing s h1 h2 h3 h4 =>
    obtain ⟨e, he⟩ := cmapEncoding_none (predefined := predefined) h1 (fun n hn => by rw [h2] at hn; cases hn)
    rw [text_bytes h4 he]
    obtain ⟨u, enc, base⟩ := fd
    cases h1
    cases h2
    refine C65_nothing builtin predefined 0 base s fun n hn => h3 n ?_
    simp only [standard14, standardFonts, List.mem_cons, List.not_mem_nil, or_false] at hn ⊢
    rcases hn with h | h | h | h | h | h | h | h | h | h | h | h | h | h <;> simp [h]

end PdfReader
