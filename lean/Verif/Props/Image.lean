/-
  C54, C84, C85, C86: images for Pillow.
-/
import Verif.Spec.Image
import Verif.Lemmas.FaxLines

namespace PdfReader
open Spec

/-- The modes which the conversion uses, and their components. -/
def modeComps : List (Bytes × Nat) := [(b!"RGB", 3), (b!"CMYK", 4), (b!"L", 1), (b!"P", 1)]

/-- C54: exactly one byte for each component of each pixel: what there is, and zeros for the rest. -/
theorem C54_recovers (mode : Bytes) (k : Nat) (hm : (mode, k) ∈ modeComps) (w h : Nat) (raw : Bytes) :
    ∃ out, recoverImage mode w h raw = .ok out ∧ out.length = w * h * k ∧ ∀ i : Nat, i < w * h * k → out[i]? = some (raw.getD i 0) := by
  have hsize : ∃ size : Nat, size = w * h * k ∧ recoverImage mode w h raw = .ok (if size < raw.length then raw.take size else if raw.length < size then raw ++ List.replicate (size - raw.length) 0 else raw) := by
    simp only [modeComps, List.mem_cons, List.not_mem_nil, or_false, Prod.mk.injEq] at hm
    rcases hm with ⟨rfl, rfl⟩ | ⟨rfl, rfl⟩ | ⟨rfl, rfl⟩ | ⟨rfl, rfl⟩
    · exact ⟨_, rfl, rfl⟩
    · exact ⟨_, rfl, rfl⟩
    · exact ⟨w * h, by rw [Nat.mul_one], rfl⟩
    · exact ⟨w * h, by rw [Nat.mul_one], rfl⟩
  obtain ⟨size, hs, e⟩ := hsize
  rw [← hs]
  refine ⟨_, e, ?_, ?_⟩
  · split
    · rw [List.length_take]; omega
    · split
      · rw [List.length_append, List.length_replicate]; omega
      · omega
  · intro i hi
    rw [List.getD_eq_getElem?_getD]
    split
    · rw [List.getElem?_take, if_pos hi, List.getElem?_eq_getElem (by omega)]; rfl
    · split
      · rcases Nat.lt_or_ge i raw.length with hl | hl
        · rw [List.getElem?_append_left hl, List.getElem?_eq_getElem hl]; rfl
        · rw [List.getElem?_append_right hl, List.getElem?_eq_none hl, List.getElem?_replicate, if_pos (by omega)]; rfl
      · rw [List.getElem?_eq_getElem (by omega)]; rfl

theorem pilNamed_mode (n : Bytes) : ∃ k, (pilNamed n, k) ∈ modeComps := by
  unfold pilNamed
  split
  · exact ⟨3, by decide⟩
  · split
    · exact ⟨4, by decide⟩
    · split
      · exact ⟨1, by decide⟩
      · exact ⟨1, by decide⟩

theorem plain_filter (f : ImgFilter) (h : PlainFilter f) : ∃ n, lastFilter f = .ok n ∧ ¬(n = some b!"DCTDecode" ∨ n = some b!"JPXDecode") ∧ n ≠ some b!"CCITTFaxDecode" := by
  cases f with
  | none => exact ⟨none, rfl, by simp, by simp⟩
  | one n =>
    have h' : n ∉ [b!"DCTDecode", b!"JPXDecode", b!"CCITTFaxDecode"] := h
    simp only [List.mem_cons, List.not_mem_nil, or_false, not_or] at h'
    refine ⟨some n, rfl, ?_, ?_⟩
    · rintro (e | e)
      · exact h'.1 (by injection e)
      · exact h'.2.1 (by injection e)
    · intro e; exact h'.2.2 (by injection e)
  | many ns =>
    obtain ⟨n, hl, h'⟩ := h
    simp only [List.mem_cons, List.not_mem_nil, or_false, not_or] at h'
    refine ⟨some n, by unfold lastFilter; dsimp only; rw [hl], ?_, ?_⟩
    · rintro (e | e)
      · exact h'.1 (by injection e)
      · exact h'.2.1 (by injection e)
    · intro e; exact h'.2.2 (by injection e)

/-- A plain image is handed over as pixels of the mode of its colour space. -/
theorem toPillow_plain (im : ImageAttrs) (n d : Bytes) (hf : PlainFilter im.filter) (hm : im.mask = false) (hs : im.space = .name n) (hd : im.filtered = .ok d) :
    toPillow im = (recoverImage (pilNamed n) im.width im.height d).map fun d => .pixels (pilNamed n) im.width im.height d := by
  obtain ⟨f, e, h1, h2⟩ := plain_filter im.filter hf
  unfold toPillow
  rw [e]
  dsimp only
  rw [if_neg h1, if_neg (by rintro (h | h); exact h2 h; rw [hm] at h; cases h), hs]
  dsimp only
  rw [hd]

/-- C54: Pillow gets the number of bytes which it needs for the size and the mode. -/
theorem C54_pillow (im : ImageAttrs) (n d : Bytes) (hf : PlainFilter im.filter) (hm : im.mask = false) (hs : im.space = .name n) (hd : im.filtered = .ok d) :
    ∃ mode k out, toPillow im = .ok (.pixels mode im.width im.height out) ∧ (mode, k) ∈ modeComps ∧ out.length = im.width * im.height * k := by
  obtain ⟨k, hk⟩ := pilNamed_mode n
  obtain ⟨out, e, hl, _⟩ := C54_recovers (pilNamed n) k hk im.width im.height d
  refine ⟨pilNamed n, k, out, ?_, hk, hl⟩
  rw [toPillow_plain im n d hf hm hs hd, e]
  rfl

/-- C84: a complete image of 8 bits in a device colour space is handed over as it is, in the mode of its colour space. Missing: DeviceGray,
other numbers of bits, other colour spaces. -/
theorem C84_unchanged_partial (im : ImageAttrs) (n mode d : Bytes) (k : Nat) (hn : (n, k, mode) ∈ deviceSpaces) (hg : n ≠ b!"DeviceGray") (hf : PlainFilter im.filter)
    (hm : im.mask = false) (hs : im.space = .name n) (hd : im.filtered = .ok d) (hl : d.length = fullSize im.width im.height k 8) :
    toPillow im = .ok (.pixels mode im.width im.height d) := by
  rw [toPillow_plain im n d hf hm hs hd]
  have hmode : pilNamed n = mode ∧ (mode, k) ∈ modeComps := by
    simp only [deviceSpaces, List.mem_cons, List.not_mem_nil, or_false, Prod.mk.injEq] at hn
    rcases hn with ⟨rfl, rfl, rfl⟩ | ⟨rfl, rfl, rfl⟩ | ⟨rfl, rfl, rfl⟩ | ⟨rfl, rfl, rfl⟩ | ⟨rfl, rfl, rfl⟩ | ⟨rfl, rfl, rfl⟩
    · decide
    · decide
    · decide
    · decide
    · exact absurd rfl hg
    · decide
  rw [hmode.1]
  have hfull : d.length = im.width * im.height * k := by
    rw [hl]
    unfold fullSize
    rw [show (im.width * k * 8 + 7) / 8 = im.width * k by omega, ← Nat.mul_assoc, Nat.mul_comm im.height im.width]
  obtain ⟨out, e, hlen, hi⟩ := C54_recovers mode k hmode.2 im.width im.height d
  have : out = d := by
    apply List.ext_getElem?
    intro i
    rcases Nat.lt_or_ge i (im.width * im.height * k) with h | h
    · rw [hi i h, List.getD_eq_getElem?_getD, List.getElem?_eq_getElem (by omega)]; rfl
    · rw [List.getElem?_eq_none (by omega), List.getElem?_eq_none (by omega)]
  rw [e, this]
  rfl

example : toPillow { width := 1, height := 2, space := .name b!"DeviceRGB", raw := [], filtered := .ok [1, 2, 3, 4, 5, 6] } = .ok (.pixels b!"RGB" 1 2 [1, 2, 3, 4, 5, 6]) :=
  C84_unchanged_partial _ b!"DeviceRGB" b!"RGB" _ 3 (by decide) (by decide) trivial rfl rfl rfl rfl

/-- C84: a DCT or JPX image XObject is handed over as the encoded file. Missing: further filters, inline images. -/
theorem C84_encoded_partial (im : ImageAttrs) (hi : im.inline = false) (hf : im.filter = .one b!"DCTDecode" ∨ im.filter = .one b!"JPXDecode" ∨ im.filter = .many [b!"DCTDecode"] ∨ im.filter = .many [b!"JPXDecode"]) :
    toPillow im = .ok (.opened im.raw) := by
  unfold toPillow
  rcases hf with h | h | h | h <;> rw [h, hi] <;> rfl

/-- The bytes of a colour table, which may be a stream, a literal or a hexadecimal string. -/
inductive TableOf : CsItem → Bytes → Prop
  | stream (t : Bytes) : TableOf (.stream (.ok t)) t
  | hex (t : Bytes) : TableOf (.hex (.ok t)) t
  | str (t : Bytes) : TableOf (.str t) t

/-- C84: an image in an indexed colour space over a device colour space is handed over with its data and its table of colours, in the mode of the base.
Missing: DeviceGray, Decode, other numbers of bits. -/
theorem C84_indexed_partial (im : ImageAttrs) (n mode d t : Bytes) (k : Nat) (hival : CsItem) (lookup : CsItem) (hn : (n, k, mode) ∈ deviceSpaces) (hg : n ≠ b!"DeviceGray")
    (hf : PlainFilter im.filter) (hm : im.mask = false) (ht : TableOf lookup t) (hs : im.space = .arr [.name b!"Indexed", .name n, hival, lookup]) (hd : im.filtered = .ok d) :
    toPillow im = .ok (.palette im.width im.height t mode d) := by
  have hmode : pilNamed n = mode := by
    simp only [deviceSpaces, List.mem_cons, List.not_mem_nil, or_false, Prod.mk.injEq] at hn
    rcases hn with ⟨rfl, rfl, rfl⟩ | ⟨rfl, rfl, rfl⟩ | ⟨rfl, rfl, rfl⟩ | ⟨rfl, rfl, rfl⟩ | ⟨rfl, rfl, rfl⟩ | ⟨rfl, rfl, rfl⟩
    · decide
    · decide
    · decide
    · decide
    · exact absurd rfl hg
    · decide
  obtain ⟨f, e, h1, h2⟩ := plain_filter im.filter hf
  unfold toPillow
  rw [e]
  dsimp only
  rw [if_neg h1, if_neg (by rintro (h | h); exact h2 h; rw [hm] at h; cases h), hs]
  dsimp only
  unfold arrayImage
  dsimp only
  rw [if_pos (by decide), hd, ← hmode]
  cases ht <;> rfl

example : toPillow { width := 1, height := 1, space := .arr [.name b!"Indexed", .name b!"DeviceRGB", .int 1, .str [1, 2, 3, 4, 5, 6]], raw := [], filtered := .ok [1] } =
    .ok (.palette 1 1 [1, 2, 3, 4, 5, 6] b!"RGB" [1]) :=
  C84_indexed_partial _ b!"DeviceRGB" b!"RGB" _ _ 3 (.int 1) _ (by decide) (by decide) trivial rfl (.str _) rfl rfl

/-- C84 is false for DeviceGray, whose name the code misspells: all such images become palette images without a palette. -/
theorem C84_gray_counterexample (im : ImageAttrs) (d : Bytes) (hf : PlainFilter im.filter) (hm : im.mask = false) (hs : im.space = .name b!"DeviceGray") (hd : im.filtered = .ok d) :
    ∃ out, toPillow im = .ok (.pixels b!"P" im.width im.height out) := by
  rw [toPillow_plain im _ d hf hm hs hd]
  obtain ⟨out, e, _⟩ := C54_recovers b!"P" 1 (by decide) im.width im.height d
  exact ⟨out, by rw [show pilNamed b!"DeviceGray" = b!"P" from by decide, e]; rfl⟩

/-- For fewer bits: eight pixels of one bit each are taken for the first pixel, and zeros are appended. -/
theorem C84_bits_counterexample :
    toPillow { width := 8, height := 1, bits := some 1, space := .name b!"G", raw := [], filtered := .ok [0xAA] } = .ok (.pixels b!"L" 8 1 [0xAA, 0, 0, 0, 0, 0, 0, 0]) := by decide +kernel

/-- For colour spaces with an ICC profile, which are arrays of two elements. -/
theorem C84_icc_counterexample (im : ImageAttrs) (n : Option Int) (hf : PlainFilter im.filter) (hm : im.mask = false) (hs : im.space = .arr [.name b!"ICCBased", .profile n]) :
    toPillow im = .error .indexError := by
  obtain ⟨f, e, h1, h2⟩ := plain_filter im.filter hf
  unfold toPillow
  rw [e]
  dsimp only
  rw [if_neg h1, if_neg (by rintro (h | h); exact h2 h; rw [hm] at h; cases h), hs]
  rfl

/-- For DCT data which are encoded once more: Pillow gets them still encoded. -/
theorem C84_chain_counterexample (im : ImageAttrs) (hi : im.inline = false) (hf : im.filter = .many [b!"ASCII85Decode", b!"DCTDecode"]) : toPillow im = .ok (.opened im.raw) := by
  unfold toPillow
  rw [hf, hi]
  rfl

/-- For inline images with DCT data. -/
theorem C84_inline_counterexample (im : ImageAttrs) (hi : im.inline = true) (hf : im.filter = .one b!"DCTDecode") : toPillow im = .error .attributeError := by
  unfold toPillow
  rw [hf, hi]
  rfl

/-! ### Samples -/

theorem bitsValue_bit (l : List Bool) : ∀ i, (bitsValue l.reverse).testBit i = l.getD i false := by
  induction l with
  | nil => intro i; simp [bitsValue]
  | cons b l ih =>
    intro i
    have e : bitsValue (b :: l).reverse = 2 * bitsValue l.reverse + b.toNat := by
      unfold bitsValue
      rw [List.reverse_cons, List.foldl_append]
      rfl
    rw [e]
    cases i with
    | zero => cases b <;> simp [Nat.testBit_zero]
    | succ i =>
      rw [Nat.testBit_succ, show (2 * bitsValue l.reverse + b.toNat) / 2 = bitsValue l.reverse by cases b <;> simp <;> omega, ih]
      rfl

theorem components_samples (bpc : Nat) (hb : 0 < bpc) : ∀ (fuel : Nat) (bits : List Bool), bits.length ≤ fuel → Samples bpc bits (components bpc fuel bits) := by
  intro fuel
  induction fuel with
  | zero =>
    intro bits h
    have : bits = [] := List.length_eq_zero_iff.mp (by omega)
    subst this
    exact .nil
  | succ fuel ih =>
    intro bits h
    cases bits with
    | nil => exact .nil
    | cons b bs =>
      unfold components
      have hv : ∀ g : List Bool, ∀ i, (bitsValue g).testBit i = g.reverse.getD i false := by
        intro g i
        have := bitsValue_bit g.reverse i
        rwa [List.reverse_reverse] at this
      have hrest := ih ((b :: bs).drop bpc) (by rw [List.length_drop]; simp at h ⊢; omega)
      rcases Nat.lt_or_ge (b :: bs).length bpc with hl | hl
      · rw [List.take_of_length_le (by omega), List.drop_eq_nil_of_le (by omega)]
        have hnil : components bpc fuel [] = [] := by cases fuel <;> rfl
        rw [hnil]
        exact .last _ _ (by simp) hl (hv _)
      · have hc : Samples bpc ((b :: bs).take bpc ++ (b :: bs).drop bpc) (bitsValue ((b :: bs).take bpc) :: components bpc fuel ((b :: bs).drop bpc)) := by
          refine .cons _ _ _ _ ?_ ?_ (hv _) hrest
          · intro e
            have := congrArg List.length e
            rw [List.length_take, List.length_nil] at this
            omega
          · rw [List.length_take]; omega
        rwa [List.take_append_drop] at hc

theorem flatMap_masks (d : Bytes) : d.flatMap byteMasks = dataBits d := by
  induction d with
  | nil => rfl
  | cons b d ih => rw [List.flatMap_cons, ih, dataBits_cons]

theorem imgMap_id (vs : List Nat) : imgMap (decodeValue none) vs = .ok vs := by
  induction vs with
  | nil => rfl
  | cons v vs ih => unfold imgMap; rw [ih]; rfl

/-- C86: without Decode the decoded values are the samples of the data. Missing: the fill bits at the end of rows count as samples. -/
theorem C86_samples_partial (im : ImageAttrs) (bpc : Nat) (hb : 0 < bpc) (d : Bytes) (hbits : im.bits = some bpc) (hdec : im.decode = none) (hd : im.filtered = .ok d) :
    ∃ vs, decodedImage im = .ok vs ∧ Samples bpc (dataBits d) vs := by
  unfold decodedImage
  rw [hd]
  dsimp only
  rw [hbits, hdec]
  cases bpc with
  | zero => omega
  | succ n =>
    dsimp only
    rw [imgMap_id, flatMap_masks]
    exact ⟨_, rfl, components_samples (n + 1) hb _ _ (Nat.le_refl _)⟩

theorem C86_bytes (im : ImageAttrs) (d : Bytes) (hbits : im.bits = some 8) (hdec : im.decode = none) (hd : im.filtered = .ok d) : decodedImage im = .ok (d.map (·.toNat)) := by
  unfold decodedImage
  rw [hd]
  dsimp only
  rw [hbits, hdec]
  dsimp only
  rw [if_neg (by decide), imgMap_id]
  congr 1
  clear hd
  induction d with
  | nil => rfl
  | cons b d ih =>
    rw [List.flatMap_cons]
    have h8 : ∀ (l r : List Bool), l.length = 8 → components 8 (l ++ r).length (l ++ r) = bitsValue l :: components 8 r.length r := by
      intro l r hl
      have hfuel : ∀ (n m : Nat) (r : List Bool), r.length ≤ n → r.length ≤ m → components 8 n r = components 8 m r := by
        intro n
        induction n with
        | zero => intro m r h1 _; have : r = [] := List.length_eq_zero_iff.mp (by omega); subst this; cases m <;> rfl
        | succ n ihn =>
          intro m r h1 h2
          cases r with
          | nil => cases m <;> rfl
          | cons x xs =>
            cases m with
            | zero => simp at h2
            | succ m =>
              unfold components
              rw [ihn m _ (by rw [List.length_drop]; simp at h1 ⊢; omega) (by rw [List.length_drop]; simp at h2 ⊢; omega)]
      cases l with
      | nil => simp at hl
      | cons x xs =>
        rw [List.cons_append, List.length_cons]
        rw [show components 8 ((xs ++ r).length + 1) (x :: (xs ++ r)) = bitsValue ((x :: (xs ++ r)).take 8) :: components 8 (xs ++ r).length ((x :: (xs ++ r)).drop 8) from rfl]
        rw [← List.cons_append, List.take_left' hl, List.drop_left' hl, hfuel _ r.length r (by rw [List.length_append]; omega) (Nat.le_refl _)]
    rw [h8 _ _ (masks_length b), ih, List.map_cons]
    congr 1
    exact forall_u8 (fun b => bitsValue (byteMasks b) = b.toNat) (by decide +kernel) b

/-- C86 is false for rows which do not end at a byte: two rows of one pixel make 16 values. -/
theorem C86_rows_counterexample : (decodedImage { width := 1, height := 2, bits := some 1, raw := [], filtered := .ok [0x80, 0x80] }).map List.length = .ok 16 := by decide +kernel

/-- And for a Decode array of a range: the values are looked up in it. -/
theorem C86_decode_counterexample : decodedImage { width := 1, height := 1, bits := some 8, decode := some [0, 1], raw := [], filtered := .ok [255] } = .error .indexError := by
  decide +kernel

/-- C86: there are no samples of no bits: such an image is refused, whatever its data are. -/
theorem C86_no_bits (im : ImageAttrs) (d : Bytes) (hbits : im.bits = some 0) (hd : im.filtered = .ok d) : decodedImage im = .error .valueError := by
  unfold decodedImage
  rw [hd]
  dsimp only
  rw [hbits]
  rfl

example : ∃ im : ImageAttrs, im.bits = some 0 ∧ im.filtered = .ok [1, 2] := ⟨{ width := 1, height := 1, bits := some 0, raw := [], filtered := .ok [1, 2] }, rfl, rfl⟩

/-! ### Bilevel images -/

theorem components_one : ∀ (fuel : Nat) (bits : List Bool), bits.length ≤ fuel → components 1 fuel bits = bits.map (·.toNat) := by
  intro fuel
  induction fuel with
  | zero => intro bits h; have : bits = [] := List.length_eq_zero_iff.mp (by omega); subst this; rfl
  | succ fuel ih =>
    intro bits h
    cases bits with
    | nil => rfl
    | cons b bs =>
      unfold components
      rw [List.map_cons, ← ih bs (by simpa using h)]
      cases b <;> rfl

theorem imgMap_table (x y : Nat) (bits : List Bool) : imgMap (decodeValue (some [x, y])) (bits.map (·.toNat)) = .ok (bits.map fun b => if b then y else x) := by
  induction bits with
  | nil => rfl
  | cons b bs ih =>
    rw [List.map_cons]
    unfold imgMap
    rw [ih]
    cases b <;> rfl

theorem pack_bytes (f : Bool → Bool) (d : Bytes) : packBits d.length ((dataBits d).map f) = d.map fun b => packByte ((byteMasks b).map f) := by
  induction d with
  | nil => rfl
  | cons b d ih =>
    rw [dataBits_cons, List.map_append, List.length_cons]
    unfold packBits
    have hl : ((byteMasks b).map f).length = 8 := by rw [List.length_map, masks_length]
    rw [List.take_left' hl, List.drop_left' hl, ih, List.map_cons]

theorem masks_pack : ∀ b : Byte, packByte ((byteMasks b).map id) = b := forall_u8 _ (by decide +kernel)
theorem masks_not : ∀ b : Byte, packByte ((byteMasks b).map (!·)) = ~~~b := forall_u8 _ (by decide +kernel)

theorem dataBits_length (d : Bytes) : (dataBits d).length = 8 * d.length := by
  induction d with
  | nil => rfl
  | cons b bs ih => rw [dataBits_cons, List.length_append, ih, masks_length, List.length_cons]; omega

theorem bitPixels_bits (f : Bool → Bool) (d : Bytes) : bitPixels ((dataBits d).map fun b => (f b).toNat) = .ok (d.map fun b => packByte ((byteMasks b).map f)) := by
  unfold bitPixels
  rw [if_pos]
  · rw [← pack_bytes, List.length_map, dataBits_length, show (8 * d.length + 7) / 8 = d.length by omega, List.map_map]
    congr 2
    apply List.map_congr_left
    intro b _
    show ((f b).toNat == 1) = f b
    cases f b <;> rfl
  · rw [List.all_eq_true]
    intro v hv
    obtain ⟨b, _, rfl⟩ := List.mem_map.mp hv
    cases f b <;> rfl

theorem fax_last {f : ImgFilter} (h : FaxFilter f) : lastFilter f = .ok (some b!"CCITTFaxDecode") := by
  cases f with
  | none => exact h.elim
  | one n => rw [show n = _ from h]; rfl
  | many ns => unfold lastFilter; dsimp only; rw [show ns.getLast? = _ from h]

theorem toPillow_bilevel (im : ImageAttrs) (h : FaxFilter im.filter ∨ (im.mask = true ∧ PlainFilter im.filter)) (d : Bytes)
    (hd : im.filtered = .ok d) (hb : im.bits = some 1) (f : Bool → Bool)
    (hf : imgMap (decodeValue im.decode) ((dataBits d).map (·.toNat)) = .ok ((dataBits d).map fun b => (f b).toNat)) :
    toPillow im = .ok (.pixels b!"1" im.width im.height (d.map fun b => packByte ((byteMasks b).map f))) := by
  have hdec : decodedImage im = .ok ((dataBits d).map fun b => (f b).toNat) := by
    unfold decodedImage
    rw [hd]
    dsimp only
    rw [hb]
    dsimp only
    rw [flatMap_masks, components_one _ _ (Nat.le_refl _), hf, if_neg (by decide)]
  have hgo : ∀ n, ¬(n = some b!"DCTDecode" ∨ n = some b!"JPXDecode") → (n = some b!"CCITTFaxDecode" ∨ im.mask = true) → lastFilter im.filter = .ok n →
      toPillow im = .ok (.pixels b!"1" im.width im.height (d.map fun b => packByte ((byteMasks b).map f))) := by
    intro n h1 h2 e
    unfold toPillow
    rw [e]
    dsimp only
    rw [if_neg h1, if_pos h2, hdec]
    dsimp only
    rw [bitPixels_bits]
    rfl
  rcases h with hfx | ⟨hm, hp⟩
  · exact hgo (some b!"CCITTFaxDecode") (by decide) (.inl rfl) (fax_last hfx)
  · obtain ⟨n, e, h1, _⟩ := plain_filter im.filter hp
    exact hgo n h1 (.inr hm) e

/-- C85: the pixels of fax images and of masks of one bit are handed over as they are, -/
theorem C85_bilevel_partial (im : ImageAttrs) (h : FaxFilter im.filter ∨ (im.mask = true ∧ PlainFilter im.filter)) (d : Bytes)
    (hd : im.filtered = .ok d) (hb : im.bits = some 1) (hdec : im.decode = none ∨ im.decode = some [0, 1]) : toPillow im = .ok (.pixels b!"1" im.width im.height d) := by
  have := toPillow_bilevel im h d hd hb id (by
    rcases hdec with e | e
    · rw [e, imgMap_id]; rfl
    · rw [e, imgMap_table]
      congr 1
      apply List.map_congr_left
      intro b _
      cases b <;> rfl)
  rw [this]
  congr 2
  rw [List.map_congr_left (fun b _ => masks_pack b), List.map_id']

/-- and inverted if Decode says so. Missing: masks whose BitsPerComponent, which is optional, is missing. -/
theorem C85_inverted_partial (im : ImageAttrs) (h : FaxFilter im.filter ∨ (im.mask = true ∧ PlainFilter im.filter)) (d : Bytes)
    (hd : im.filtered = .ok d) (hb : im.bits = some 1) (hdec : im.decode = some [1, 0]) : toPillow im = .ok (.pixels b!"1" im.width im.height (d.map (~~~ ·))) := by
  have := toPillow_bilevel im h d hd hb (!·) (by
    rw [hdec, imgMap_table]
    congr 1
    apply List.map_congr_left
    intro b _
    cases b <;> rfl)
  rw [this]
  congr 2
  exact List.map_congr_left (fun b _ => masks_not b)

example : toPillow { width := 8, height := 1, mask := true, bits := some 1, decode := some [1, 0], raw := [], filtered := .ok [0xF1] } = .ok (.pixels b!"1" 8 1 [0x0E]) := by decide +kernel

/-- C85 is false for masks without BitsPerComponent. -/
theorem C85_mask_counterexample (im : ImageAttrs) (d : Bytes) (hm : im.mask = true) (hf : PlainFilter im.filter) (hd : im.filtered = .ok d) (hb : im.bits = none) : toPillow im = .error .typeError := by
  obtain ⟨n, e, h1, _⟩ := plain_filter im.filter hf
  unfold toPillow
  rw [e]
  dsimp only
  rw [if_neg h1, if_pos (.inr hm)]
  unfold decodedImage
  rw [hd]
  dsimp only
  rw [hb]

end PdfReader
