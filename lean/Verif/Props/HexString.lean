/-
  C151: hexadecimal strings stand for the bytes which they spell.
-/
import Verif.Model.HexString
import Verif.Spec.HexString
import Verif.Props.Parser
import Verif.Lemmas.Text

namespace PdfReader

open Spec

theorem pair_length (s : Bytes) : (s.flatMap hexPair).length = 2 * s.length := by
  induction s with
  | nil => rfl
  | cons c s ih => rw [List.flatMap_cons, List.length_append, ih]; show 2 + _ = 2 * (s.length + 1); omega

theorem pad_written {d s : Bytes} (h : d = s.flatMap hexPair ∨ d ++ [48] = s.flatMap hexPair) : padHex d = s.flatMap hexPair := by
  have hl := pair_length s
  unfold padHex
  rcases h with h | h
  · rw [if_pos (by rw [h, hl]; omega)]
    exact h
  · have : d.length + 1 = 2 * s.length := by rw [← hl, ← h, List.length_append]; rfl
    rw [if_neg (by omega)]
    exact h

theorem pair_value (c : Byte) : (hexPair c).map hexVal? = [some (c.toNat / 16), some (c.toNat % 16)] :=
  forall_u8 (fun c => (hexPair c).map hexVal? = [some (c.toNat / 16), some (c.toNat % 16)]) (by decide +kernel) c

/-- The step of `int(self, 16)`. -/
def hexFoldStep (a : Res Nat) (c : Byte) : Res Nat := match a, hexVal? c with | .ok n, some v => .ok (16 * n + v) | _, _ => .error .valueError

theorem fold_pairs : ∀ (s : Bytes) (n : Nat), (s.flatMap hexPair).foldl hexFoldStep (.ok n) = .ok (n * 256 ^ s.length + number256 s)
  | [], n => by show Except.ok n = _; rw [show number256 [] = 0 from rfl]; simp
  | c :: s, n => by
    rw [List.flatMap_cons, List.foldl_append]
    have hv := pair_value c
    have hp : hexPair c = [(b!"0123456789ABCDEF")[c.toNat / 16]?.getD 0, (b!"0123456789ABCDEF")[c.toNat % 16]?.getD 0] := rfl
    rw [hp] at hv ⊢
    generalize (b!"0123456789ABCDEF")[c.toNat / 16]?.getD 0 = x at hv ⊢
    generalize (b!"0123456789ABCDEF")[c.toNat % 16]?.getD 0 = y at hv ⊢
    injection hv with h1 h2
    injection h2 with h2 _
    have e : [x, y].foldl hexFoldStep (.ok n) = .ok (n * 256 + c.toNat) := by
      show hexFoldStep (hexFoldStep (.ok n) x) y = _
      unfold hexFoldStep
      rw [h1, h2]
      dsimp only
      congr 1
      omega
    rw [e, fold_pairs s]
    congr 1
    show (n * 256 + c.toNat) * 256 ^ s.length + number256 s = n * 256 ^ (s.length + 1) + (c.toNat * 256 ^ s.length + number256 s)
    rw [Nat.pow_succ, Nat.add_mul, Nat.mul_assoc, Nat.mul_comm 256, Nat.add_assoc]

/-- C151: every spelling of a byte string, at every place of a file, is read as a string whose bytes, text and number are those of the byte string. -/
theorem C151_bytes (cfg : Cfg) (hc : cfg.NoDiv) (s t x : Bytes) (h : HexWritten s t) :
    ∃ d, parseObject cfg (60 :: (t ++ 62 :: x)) = .ok (.hex d, x) ∧ hexBytes d = .ok s ∧ hexToString d = .ok (s.map fun b => b.toNat) ∧
      hexNat d = if s = [] then .error .valueError else .ok (number256 s) := by
  obtain ⟨d, h1, h2⟩ := h
  refine ⟨padHex d, C17_hexstring cfg hc d t x h1, ?_⟩
  rw [pad_written h2]
  refine ⟨hexBytes_pairs s, ?_, ?_⟩
  · unfold hexToString
    rw [hexBytes_pairs]
    rfl
  · have hf := fold_pairs s 0
    rw [Nat.zero_mul, Nat.zero_add] at hf
    unfold hexNat
    cases s with
    | nil => rfl
    | cons c s =>
      rw [if_neg (by rw [List.flatMap_cons]; exact fun e => by cases e), if_neg (by simp)]
      exact hf

/-- C151: two hexadecimal strings are read as the same string exactly if they spell the same bytes. -/
theorem C151_same (cfg : Cfg) (hc : cfg.NoDiv) (s s' t t' x x' : Bytes) (h : HexWritten s t) (h' : HexWritten s' t') :
    (∃ d, parseObject cfg (60 :: (t ++ 62 :: x)) = .ok (.hex d, x) ∧ parseObject cfg (60 :: (t' ++ 62 :: x')) = .ok (.hex d, x')) ↔ s = s' := by
  obtain ⟨d, h1, h2, _⟩ := C151_bytes cfg hc s t x h
  obtain ⟨d', h1', h2', _⟩ := C151_bytes cfg hc s' t' x' h'
  constructor
  · rintro ⟨e, a, b⟩
    rw [h1] at a
    rw [h1'] at b
    cases a
    cases b
    rw [h2] at h2'
    cases h2'
    rfl
  · rintro rfl
    obtain ⟨e, f1, f2⟩ := h
    obtain ⟨e', g1, g2⟩ := h'
    refine ⟨s.flatMap hexPair, ?_, ?_⟩
    · rw [C17_hexstring cfg hc e t x f1, pad_written f2]
    · rw [C17_hexstring cfg hc e' t' x' g1, pad_written g2]

/-- `< 4a F>` and `<4AF0>` spell the bytes 4A F0. -/
example : HexWritten [0x4A, 0xF0] b!" 4a F" ∧ HexWritten [0x4A, 0xF0] b!"4AF0" :=
  ⟨⟨b!"4AF", .ws 32 _ _ (show _ ∈ _ by decide) (.digit 4 52 52 _ _ rfl (.inl rfl) (.digit 10 65 97 _ _ rfl (.inr rfl) (.ws 32 _ _ (show _ ∈ _ by decide) (.digit 15 70 70 _ _ rfl (.inl rfl) .nil)))), Or.inr (by decide)⟩,
   ⟨b!"4AF0", .digit 4 52 52 _ _ rfl (.inl rfl) (.digit 10 65 65 _ _ rfl (.inl rfl) (.digit 15 70 70 _ _ rfl (.inl rfl) (.digit 0 48 48 _ _ rfl (.inl rfl) .nil))), Or.inl (by decide)⟩⟩

example : number256 [0x01, 0x02] = 258 := rfl

end PdfReader
