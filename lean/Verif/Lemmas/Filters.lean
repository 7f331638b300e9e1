import Verif.Model.Filters
import Verif.Spec.Filters
import Verif.Lemmas.Basic

namespace PdfReader
open Spec

/-! ### ASCIIHex -/

theorem blank_isWs {w : Bytes} (h : Blank w) : ∀ c ∈ w, isWs c = true := by
  intro c hc
  have := h c hc
  simp only [List.mem_cons, List.not_mem_nil, or_false] at this
  rcases this with h | h | h | h | h | h <;> subst h <;> decide

theorem isWs_blank {c : Byte} (h : isWs c = true) : c ∈ ([0, 9, 10, 12, 13, 32] : Bytes) := by
  exact forall_u8 (fun c => isWs c = true → c ∈ ([0, 9, 10, 12, 13, 32] : Bytes)) (by decide +kernel) c h

theorem hexDigit_val {v : Nat} {c : Byte} (h : HexDigit v c) : hexVal? c = some v := by
  have hv : v < 16 := by
    rcases h with h | h <;>
    · have := (List.getElem?_eq_some_iff.mp h).1
      simpa using this
  have key1 : ∀ i : Fin 16, ((b!"0123456789ABCDEF")[i.val]?).bind hexVal? = some i.val := by decide +kernel
  have key2 : ∀ i : Fin 16, ((b!"0123456789abcdef")[i.val]?).bind hexVal? = some i.val := by decide +kernel
  rcases h with h | h
  · have := key1 ⟨v, hv⟩; rw [h] at this; simpa using this
  · have := key2 ⟨v, hv⟩; rw [h] at this; simpa using this

theorem ahxLoop_blank (buf : Option Byte) {w : Bytes} (h : Blank w) (t : Bytes) :
    ahxLoop buf (w ++ t) = ahxLoop buf t := by
  induction w with
  | nil => rfl
  | cons c w ih =>
    have hc := blank_isWs h c (by simp)
    have ht : Blank w := fun x hx => h x (by simp [hx])
    cases buf <;> simp [ahxLoop, hc, ih ht]

theorem ahxLoop_first {x : Byte} {v : Nat} (h : hexVal? x = some v) (t : Bytes) :
    ahxLoop none (x :: t) = ahxLoop (some x) t := by
  have h1 := hexVal_not_ws x (by simp [h])
  have h2 := hexVal_ne_gt x (by simp [h])
  simp [ahxLoop, h1, h2]

theorem hexVal_ne_vt {x : Byte} {v : Nat} (h : hexVal? x = some v) : x ≠ 11 := by
  rintro rfl
  revert h
  have : hexVal? 11 = none := by decide
  simp [this]

theorem ahxLoop_second {x y : Byte} {u v : Nat} (hx : hexVal? x = some u) (hy : hexVal? y = some v)
    (t : Bytes) : ahxLoop (some x) (y :: t) = UInt8.ofNat (16 * u + v) :: ahxLoop none t := by
  have h1 := hexVal_not_ws y (by simp [hy])
  have h2 := hexVal_ne_gt y (by simp [hy])
  have h3 := hexVal_ne_vt hx
  simp [ahxLoop, h1, h2, fromHex2, h3, hx, hy]

theorem byte_div_mod (b : Byte) : UInt8.ofNat (16 * (b.toNat / 16) + b.toNat % 16) = b := by
  rw [Nat.div_add_mod]; simp

theorem ahx_enc {d t : Bytes} (h : HexEnc d t) (tl : Bytes) :
    ahxLoop none (t ++ tl) = d ++ ahxLoop none tl := by
  induction h with
  | nil w hw => simpa using ahxLoop_blank none hw tl
  | cons b x y w₁ w₂ d t h1 h2 hx hy _ ih =>
    have hx := hexDigit_val hx
    have hy := hexDigit_val hy
    rw [List.append_assoc, ahxLoop_blank none h1]
    simp only [List.cons_append, List.append_assoc]
    rw [ahxLoop_first hx, ahxLoop_blank _ h2, ahxLoop_second hx hy, ih, byte_div_mod]

theorem ahx_end (r : Bytes) : ahxLoop none (62 :: r) = [] := by
  simp [ahxLoop, show isWs 62 = false by decide]

/-! ### ASCII85 -/

theorem filter_not_ws_iff (c : Byte) : (!isWs c) = true ↔ isWs c = false := by simp

theorem a85Loop_digit (curr : Bytes) (d : Nat) (hd : d < 85) (rest : Bytes) (hl : curr.length < 4) :
    a85Loop curr (UInt8.ofNat (33 + d) :: rest) = a85Loop (curr ++ [UInt8.ofNat (33 + d)]) rest := by
  have h1 : (UInt8.ofNat (33 + d)).toNat = 33 + d := by
    simp [UInt8.toNat_ofNat']; omega
  rw [a85Loop]
  rw [if_pos (by rw [h1]; omega)]
  simp only [List.length_append, List.length_singleton]
  rw [if_neg (by omega)]

theorem a85Loop_digit5 (curr : Bytes) (d : Nat) (hd : d < 85) (rest : Bytes) (hl : curr.length = 4)
    (hacc : a85Acc (curr ++ [UInt8.ofNat (33 + d)]) < 4294967296) :
    a85Loop curr (UInt8.ofNat (33 + d) :: rest) =
      (a85Loop [] rest).map (fun r => (packBE32 (a85Acc (curr ++ [UInt8.ofNat (33 + d)])) ++ r.1, r.2)) := by
  have h1 : (UInt8.ofNat (33 + d)).toNat = 33 + d := by
    simp [UInt8.toNat_ofNat']; omega
  rw [a85Loop]
  rw [if_pos (by rw [h1]; omega)]
  simp only [List.length_append, List.length_singleton]
  rw [if_pos (by omega), if_pos hacc]

theorem digit85_toNat {d : Nat} (hd : d < 85) : (UInt8.ofNat (33 + d)).toNat - 33 = d := by
  simp [UInt8.toNat_ofNat']; omega

/-- Five digits through the loop. -/
theorem a85Loop_five (d0 d1 d2 d3 d4 : Nat) (h0 : d0 < 85) (h1 : d1 < 85) (h2 : d2 < 85) (h3 : d3 < 85)
    (h4 : d4 < 85) (hv : ((((d0 * 85) + d1) * 85 + d2) * 85 + d3) * 85 + d4 < 4294967296) (rest : Bytes) :
    a85Loop [] (([d0, d1, d2, d3, d4].map (fun d => UInt8.ofNat (33 + d))) ++ rest) =
      (a85Loop [] rest).map (fun r =>
        (packBE32 (((((d0 * 85) + d1) * 85 + d2) * 85 + d3) * 85 + d4) ++ r.1, r.2)) := by
  have hacc : a85Acc ([UInt8.ofNat (33 + d0), UInt8.ofNat (33 + d1), UInt8.ofNat (33 + d2), UInt8.ofNat (33 + d3)] ++ [UInt8.ofNat (33 + d4)]) = ((((d0 * 85) + d1) * 85 + d2) * 85 + d3) * 85 + d4 := by
    simp only [a85Acc, List.cons_append, List.nil_append, List.foldl_cons, List.foldl_nil]
    rw [digit85_toNat h0, digit85_toNat h1, digit85_toNat h2, digit85_toNat h3, digit85_toNat h4]
    omega
  simp only [List.map_cons, List.map_nil, List.cons_append, List.nil_append]
  rw [a85Loop_digit _ _ h0 _ (by simp), a85Loop_digit _ _ h1 _ (by simp), a85Loop_digit _ _ h2 _ (by simp),
    a85Loop_digit _ _ h3 _ (by simp), a85Loop_digit5 _ _ h4 _ (by simp)]
  · simp only [List.nil_append, List.cons_append] at hacc ⊢
    rw [hacc]
  · simp only [List.nil_append, List.cons_append] at hacc ⊢
    rw [hacc]; exact hv

theorem beVal4_lt (a b c e : Byte) : beVal [a, b, c, e] < 4294967296 := by
  have := a.toNat_lt; have := b.toNat_lt; have := c.toNat_lt; have := e.toNat_lt
  simp only [beVal, List.foldl_cons, List.foldl_nil]; omega

theorem pack_beVal4 (a b c e : Byte) : packBE32 (beVal [a, b, c, e]) = [a, b, c, e] := by
  have ha := a.toNat_lt; have hb := b.toNat_lt; have hc := c.toNat_lt; have he := e.toNat_lt
  simp only [packBE32, beVal, List.foldl_cons, List.foldl_nil]
  congr 1
  · apply u8_ext; simp only [UInt8.toNat_ofNat']; omega
  congr 1
  · apply u8_ext; simp only [UInt8.toNat_ofNat']; omega
  congr 1
  · apply u8_ext; simp only [UInt8.toNat_ofNat']; omega
  congr 1
  · apply u8_ext; simp only [UInt8.toNat_ofNat']; omega

theorem div4 (v : Nat) : v / 85 ^ 4 = v / 85 / 85 / 85 / 85 := by
  simp [Nat.div_div_eq_div_mul]
theorem div3 (v : Nat) : v / 85 ^ 3 = v / 85 / 85 / 85 := by
  simp [Nat.div_div_eq_div_mul]
theorem div2 (v : Nat) : v / 85 ^ 2 = v / 85 / 85 := by
  simp [Nat.div_div_eq_div_mul]

theorem digits_sum (v : Nat) (hv : v < 4294967296) :
    ((((v / 85 ^ 4 % 85 * 85) + v / 85 ^ 3 % 85) * 85 + v / 85 ^ 2 % 85) * 85 + v / 85 % 85) * 85 + v % 85 = v := by
  rw [div4, div3, div2]
  omega

theorem a85Loop_group (v : Nat) (hv : v < 4294967296) (rest : Bytes) :
    a85Loop [] (digits85 v ++ rest) = (a85Loop [] rest).map (fun r => (packBE32 v ++ r.1, r.2)) := by
  have := a85Loop_five (v / 85 ^ 4 % 85) (v / 85 ^ 3 % 85) (v / 85 ^ 2 % 85) (v / 85 % 85) (v % 85)
    (Nat.mod_lt _ (by decide)) (Nat.mod_lt _ (by decide)) (Nat.mod_lt _ (by decide))
    (Nat.mod_lt _ (by decide)) (Nat.mod_lt _ (by decide)) (by rw [digits_sum v hv]; exact hv) rest
  rw [digits_sum v hv] at this
  exact this

theorem a85Loop_z (rest : Bytes) :
    a85Loop [] (122 :: rest) = (a85Loop [] rest).map (fun r => ([0, 0, 0, 0] ++ r.1, r.2)) := by
  rw [a85Loop]; simp

/-- What the loop yields at the end on the four padding characters. -/
theorem a85Loop_pad : a85Loop [] [117, 117, 117, 117] = some ([], [117, 117, 117, 117]) := by
  decide +kernel

/-- The partial last group of `n` bytes: `n+1` digits followed by the padding. -/
theorem a85_last (d : Bytes) (h1 : 1 ≤ d.length) (h3 : d.length ≤ 3) :
    ∃ ext : Bytes, ext.length = 4 - d.length ∧
    a85Loop [] ((digits85 (beVal (d ++ List.replicate (4 - d.length) 0))).take (d.length + 1) ++ [117, 117, 117, 117])
      = some (d ++ ext, List.replicate d.length 117) := by
  match d, h1, h3 with
  | [a], _, _ =>
    have ha := a.toNat_lt
    simp only [List.length_cons, List.length_nil, List.cons_append, List.nil_append, List.replicate, Nat.zero_add, Nat.reduceAdd, Nat.reduceSub]
    generalize hv : beVal [a, 0, 0, 0] = v
    have hv' : v = 16777216 * a.toNat := by
      rw [← hv]; simp [beVal]; omega
    have hs := digits_sum v (by omega)
    have h0 : v / 85 ^ 4 % 85 < 85 := Nat.mod_lt _ (by decide)
    have h1 : v / 85 ^ 3 % 85 < 85 := Nat.mod_lt _ (by decide)
    have h2 : v / 85 ^ 2 % 85 < 85 := Nat.mod_lt _ (by decide)
    have h3 : v / 85 % 85 < 85 := Nat.mod_lt _ (by decide)
    have h4 : v % 85 < 85 := Nat.mod_lt _ (by decide)
    unfold digits85
    generalize v / 85 ^ 4 % 85 = d0 at *
    generalize v / 85 ^ 3 % 85 = d1 at *
    generalize v / 85 ^ 2 % 85 = d2 at *
    generalize v / 85 % 85 = d3 at *
    generalize v % 85 = d4 at *
    have h := a85Loop_five d0 d1 84 84 84 h0 h1 (by decide) (by decide) (by decide) (by omega) [117]
    have hl : a85Loop [] [117] = some ([], [117]) := by decide +kernel
    have heq : (([d0, d1, d2, d3, d4].map (fun d => UInt8.ofNat (33 + d))).take 2 ++ [117, 117, 117, 117]) = ([d0, d1, 84, 84, 84].map (fun d => UInt8.ofNat (33 + d))) ++ [117] := by
      simp
    rw [heq, h, hl]
    have hV : v ≤ (((((d0 * 85) + d1) * 85 + 84) * 85 + 84) * 85 + 84) ∧ (((((d0 * 85) + d1) * 85 + 84) * 85 + 84) * 85 + 84) ≤ v + 614124 := by omega
    generalize (((((d0 * 85) + d1) * 85 + 84) * 85 + 84) * 85 + 84) = V at hV ⊢
    clear hs h heq h0 h1 h2 h3 h4
    refine ⟨(packBE32 V).drop 1, rfl, ?_⟩
    simp only [Option.map_some, packBE32, Option.some.injEq, Prod.mk.injEq, and_true, List.drop_succ_cons, List.drop_zero,
      List.cons_append, List.nil_append, List.cons.injEq]
    · apply u8_ext; simp only [UInt8.toNat_ofNat']; omega
  | [a, b], _, _ =>
    have ha := a.toNat_lt; have hb := b.toNat_lt
    simp only [List.length_cons, List.length_nil, List.cons_append, List.nil_append, List.replicate, Nat.zero_add, Nat.reduceAdd, Nat.reduceSub]
    generalize hv : beVal [a, b, 0, 0] = v
    have hv' : v = 16777216 * a.toNat + 65536 * b.toNat := by
      rw [← hv]; simp [beVal]; omega
    have hs := digits_sum v (by omega)
    have h0 : v / 85 ^ 4 % 85 < 85 := Nat.mod_lt _ (by decide)
    have h1 : v / 85 ^ 3 % 85 < 85 := Nat.mod_lt _ (by decide)
    have h2 : v / 85 ^ 2 % 85 < 85 := Nat.mod_lt _ (by decide)
    have h3 : v / 85 % 85 < 85 := Nat.mod_lt _ (by decide)
    have h4 : v % 85 < 85 := Nat.mod_lt _ (by decide)
    unfold digits85
    generalize v / 85 ^ 4 % 85 = d0 at *
    generalize v / 85 ^ 3 % 85 = d1 at *
    generalize v / 85 ^ 2 % 85 = d2 at *
    generalize v / 85 % 85 = d3 at *
    generalize v % 85 = d4 at *
    have h := a85Loop_five d0 d1 d2 84 84 h0 h1 h2 (by decide) (by decide) (by omega) [117, 117]
    have hl : a85Loop [] [117, 117] = some ([], [117, 117]) := by decide +kernel
    have heq : (([d0, d1, d2, d3, d4].map (fun d => UInt8.ofNat (33 + d))).take 3 ++ [117, 117, 117, 117]) = ([d0, d1, d2, 84, 84].map (fun d => UInt8.ofNat (33 + d))) ++ [117, 117] := by
      simp
    rw [heq, h, hl]
    have hV : v ≤ (((((d0 * 85) + d1) * 85 + d2) * 85 + 84) * 85 + 84) ∧ (((((d0 * 85) + d1) * 85 + d2) * 85 + 84) * 85 + 84) ≤ v + 7224 := by omega
    generalize (((((d0 * 85) + d1) * 85 + d2) * 85 + 84) * 85 + 84) = V at hV ⊢
    clear hs h heq h0 h1 h2 h3 h4
    refine ⟨(packBE32 V).drop 2, rfl, ?_⟩
    simp only [Option.map_some, packBE32, Option.some.injEq, Prod.mk.injEq, and_true, List.drop_succ_cons, List.drop_zero,
      List.cons_append, List.nil_append, List.cons.injEq]
    refine ⟨?_, ?_⟩
    · apply u8_ext; simp only [UInt8.toNat_ofNat']; omega
    · apply u8_ext; simp only [UInt8.toNat_ofNat']; omega
  | [a, b, c], _, _ =>
    have ha := a.toNat_lt; have hb := b.toNat_lt; have hc := c.toNat_lt
    simp only [List.length_cons, List.length_nil, List.cons_append, List.nil_append, List.replicate, Nat.zero_add, Nat.reduceAdd, Nat.reduceSub]
    generalize hv : beVal [a, b, c, 0] = v
    have hv' : v = 16777216 * a.toNat + 65536 * b.toNat + 256 * c.toNat := by
      rw [← hv]; simp [beVal]; omega
    have hs := digits_sum v (by omega)
    have h0 : v / 85 ^ 4 % 85 < 85 := Nat.mod_lt _ (by decide)
    have h1 : v / 85 ^ 3 % 85 < 85 := Nat.mod_lt _ (by decide)
    have h2 : v / 85 ^ 2 % 85 < 85 := Nat.mod_lt _ (by decide)
    have h3 : v / 85 % 85 < 85 := Nat.mod_lt _ (by decide)
    have h4 : v % 85 < 85 := Nat.mod_lt _ (by decide)
    unfold digits85
    generalize v / 85 ^ 4 % 85 = d0 at *
    generalize v / 85 ^ 3 % 85 = d1 at *
    generalize v / 85 ^ 2 % 85 = d2 at *
    generalize v / 85 % 85 = d3 at *
    generalize v % 85 = d4 at *
    have h := a85Loop_five d0 d1 d2 d3 84 h0 h1 h2 h3 (by decide) (by omega) [117, 117, 117]
    have hl : a85Loop [] [117, 117, 117] = some ([], [117, 117, 117]) := by decide +kernel
    have heq : (([d0, d1, d2, d3, d4].map (fun d => UInt8.ofNat (33 + d))).take 4 ++ [117, 117, 117, 117]) = ([d0, d1, d2, d3, 84].map (fun d => UInt8.ofNat (33 + d))) ++ [117, 117, 117] := by
      simp
    rw [heq, h, hl]
    have hV : v ≤ (((((d0 * 85) + d1) * 85 + d2) * 85 + d3) * 85 + 84) ∧ (((((d0 * 85) + d1) * 85 + d2) * 85 + d3) * 85 + 84) ≤ v + 84 := by omega
    generalize (((((d0 * 85) + d1) * 85 + d2) * 85 + d3) * 85 + 84) = V at hV ⊢
    clear hs h heq h0 h1 h2 h3 h4
    refine ⟨(packBE32 V).drop 3, rfl, ?_⟩
    simp only [Option.map_some, packBE32, Option.some.injEq, Prod.mk.injEq, and_true, List.drop_succ_cons, List.drop_zero,
      List.cons_append, List.nil_append, List.cons.injEq]
    refine ⟨?_, ?_, ?_⟩
    · apply u8_ext; simp only [UInt8.toNat_ofNat']; omega
    · apply u8_ext; simp only [UInt8.toNat_ofNat']; omega
    · apply u8_ext; simp only [UInt8.toNat_ofNat']; omega

/-- The whole loop on an encoding followed by the padding. -/
theorem a85Loop_enc {d t : Bytes} (h : A85Enc d t) :
    ∃ ext curr, a85Loop [] (t ++ [117, 117, 117, 117]) = some (d ++ ext, curr) ∧
      ext.length = 4 - curr.length ∧ curr.length ≤ 4 := by
  induction h with
  | nil => exact ⟨[], [117, 117, 117, 117], by simpa using a85Loop_pad, rfl, by decide⟩
  | group a b c e d t _ ih =>
    obtain ⟨ext, curr, hl, hn, hc⟩ := ih
    refine ⟨ext, curr, ?_, hn, hc⟩
    rw [List.append_assoc, a85Loop_group _ (beVal4_lt a b c e), hl, pack_beVal4]
    simp
  | zero d t _ ih =>
    obtain ⟨ext, curr, hl, hn, hc⟩ := ih
    refine ⟨ext, curr, ?_, hn, hc⟩
    rw [List.cons_append, a85Loop_z, hl]
    simp
  | last d h1 h3 =>
    obtain ⟨ext, hn, hl⟩ := a85_last d h1 h3
    exact ⟨ext, _, hl, by simpa using hn, by simp; omega⟩

theorem a85decode_enc {d t : Bytes} (h : A85Enc d t) : a85decode t = some d := by
  obtain ⟨ext, curr, hl, hn, hc⟩ := a85Loop_enc h
  simp only [a85decode, hl]
  congr 1
  rw [List.length_append, hn]
  simp

/-! ### Run length -/

theorem rl_many (l : Byte) (buf bs rest : Bytes) (h : buf.length + bs.length = l.toNat + 1) (hne : bs ≠ []) :
    rlLoop (.needMany l buf) (bs ++ rest) =
      ((rlLoop .needLength rest).1, buf ++ bs ++ (rlLoop .needLength rest).2) := by
  induction bs generalizing buf with
  | nil => exact absurd rfl hne
  | cons c bs ih =>
    simp only [List.cons_append, rlLoop]
    cases bs with
    | nil =>
      simp only [List.length_cons, List.length_nil] at h
      simp [h]
    | cons c' bs' =>
      simp only [List.length_cons] at h
      simp only [List.length_append, List.length_singleton]
      rw [if_neg (by omega), ih (buf ++ [c]) (by simp; omega) (by simp)]
      simp

theorem rl_run (r : Run) (hr : r.Legal) (rest : Bytes) :
    rlLoop .needLength (r.enc ++ rest) =
      ((rlLoop .needLength rest).1, r.data ++ (rlLoop .needLength rest).2) := by
  cases r with
  | lit bs =>
    obtain ⟨h1, h2⟩ := hr
    have ht : (UInt8.ofNat (bs.length - 1)).toNat = bs.length - 1 := by
      simp only [UInt8.toNat_ofNat']; omega
    simp only [Run.enc, Run.data, List.cons_append]
    rw [rlLoop]
    have hne : ¬ (UInt8.ofNat (bs.length - 1) == 128) = true := by
      intro h
      have h := congrArg UInt8.toNat (eq_of_beq h)
      rw [ht] at h
      have : (128 : UInt8).toNat = 128 := rfl
      omega
    rw [if_neg hne, if_neg (by rw [ht]; omega)]
    have := rl_many (UInt8.ofNat (bs.length - 1)) [] bs rest (by rw [ht]; simp; omega)
      (by intro h; simp [h] at h1)
    simpa using this
  | rep n b =>
    obtain ⟨h1, h2⟩ := hr
    have ht : (UInt8.ofNat (257 - n)).toNat = 257 - n := by
      simp only [UInt8.toNat_ofNat']; omega
    simp only [Run.enc, Run.data, List.cons_append, List.nil_append]
    rw [rlLoop]
    have hne : ¬ (UInt8.ofNat (257 - n) == 128) = true := by
      intro h
      have h := congrArg UInt8.toNat (eq_of_beq h)
      rw [ht] at h
      have : (128 : UInt8).toNat = 128 := rfl
      omega
    rw [if_neg hne, if_pos (by rw [ht]; omega)]
    simp only [rlLoop, ht]
    rw [show 257 - (257 - n) = n by omega]

theorem rl_runs (rs : List Run) (h : ∀ r ∈ rs, r.Legal) (rest : Bytes) :
    rlLoop .needLength (rs.flatMap Run.enc ++ rest) =
      ((rlLoop .needLength rest).1, rs.flatMap Run.data ++ (rlLoop .needLength rest).2) := by
  induction rs with
  | nil => simp
  | cons r rs ih =>
    simp only [List.flatMap_cons, List.append_assoc]
    rw [rl_run r (h r (by simp)), ih (fun r hr => h r (by simp [hr]))]

/-! ### Predictors -/

theorem stripRows_rows (n : Nat) (rows : List (Byte × Bytes)) (h : ∀ r ∈ rows, r.2.length = n) :
    ∀ fuel, rows.length ≤ fuel →
    stripRows (n + 1) fuel (rows.flatMap (fun r => r.1 :: r.2)) = rows.flatMap (·.2) := by
  induction rows with
  | nil => intro fuel _; cases fuel <;> simp [stripRows]
  | cons r rows ih =>
    intro fuel hf
    cases fuel with
    | zero => simp at hf
    | succ fuel =>
      have hr : r.2.length = n := h r (by simp)
      simp only [List.flatMap_cons, List.cons_append, stripRows]
      have e1 : (r.1 :: (r.2 ++ rows.flatMap (fun r => r.1 :: r.2))).take (n + 1) = r.1 :: r.2 := by
        simp [← hr]
      have e2 : (r.1 :: (r.2 ++ rows.flatMap (fun r => r.1 :: r.2))).drop (n + 1) =
          rows.flatMap (fun r => r.1 :: r.2) := by
        simp [← hr]
      rw [e1, e2, ih (fun r hr => h r (by simp [hr])) fuel (by simpa using hf)]
      simp

theorem pngUndo_none (tag l ul : Byte) (ht : tag ∉ ([1, 2, 3, 4] : Bytes)) (ups row : Bytes) :
    pngUndo tag l ul ups row = row := by
  induction row generalizing l ul ups with
  | nil => rfl
  | cons x xs ih =>
    simp only [List.mem_cons, List.not_mem_nil, or_false, not_or] at ht
    obtain ⟨h1, h2, h3, h4⟩ := ht
    simp only [pngUndo, if_neg h1, if_neg h2, if_neg h3, if_neg h4, ih]

end PdfReader
