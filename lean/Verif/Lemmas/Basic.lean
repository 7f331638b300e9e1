import Verif.Model.Basic

namespace PdfReader

/-- A statement about all bytes can be checked on the 256 bytes. -/
theorem forall_u8 (P : UInt8 → Prop) (h : ∀ i : Fin 256, P (UInt8.ofNat i.val)) : ∀ c, P c := by
  intro c
  have := h ⟨c.toNat, c.toNat_lt⟩
  simpa using this

theorem u8_ext {a b : UInt8} (h : a.toNat = b.toNat) : a = b := UInt8.toNat_inj.mp h

theorem hexVal_lo : ∀ n : Fin 16, hexVal? (hexDigitLo n.val) = some n.val := by decide +kernel
theorem hexVal_up : ∀ n : Fin 16, hexVal? (hexDigitUp n.val) = some n.val := by decide +kernel
theorem hexLo_not_ws : ∀ n : Fin 16, isWs (hexDigitLo n.val) = false := by decide +kernel
theorem hexUp_not_ws : ∀ n : Fin 16, isWs (hexDigitUp n.val) = false := by decide +kernel

theorem hexVal_lt : ∀ c : Byte, ∀ v, hexVal? c = some v → v < 16 := by
  intro c v h
  unfold hexVal? at h
  simp only at h
  split at h
  · injection h; omega
  · split at h
    · injection h; omega
    · split at h
      · injection h; omega
      · cases h

theorem hexVal_not_ws : ∀ c : Byte, (hexVal? c).isSome → isWs c = false :=
  forall_u8 _ (by decide +kernel)

theorem hexVal_ne_gt : ∀ c : Byte, (hexVal? c).isSome → c ≠ 62 :=
  forall_u8 _ (by decide +kernel)

example : b!"ab>" = [97, 98, 62] := rfl

end PdfReader
