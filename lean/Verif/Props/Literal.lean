/-
  C57: literal strings in the full syntax of the standard (specification: Verif/Spec/Literal.lean), and C72: hexadecimal IDs.
-/
import Verif.Spec.Literal
import Verif.Props.Parser
import Verif.Props.Encrypted

namespace PdfReader
open Spec

theorem octal_over {x y z : Byte} (hx : ∃ k, OctDigit k x) (hy : ∃ k, OctDigit k y) (hz : ∃ k, OctDigit k z) :
    octal [x, y, z] = [octalByte x y z] ∨ octal [x, y, z] = [92, x, y, z] ∧ 52 ≤ x.toNat := by
  obtain ⟨i, hi⟩ := hx
  obtain ⟨j, hj⟩ := hy
  obtain ⟨k, hk⟩ := hz
  obtain ⟨i1, i2, _⟩ := octDig_val hi
  obtain ⟨j1, j2, _⟩ := octDig_val hj
  obtain ⟨k1, k2, _⟩ := octDig_val hk
  have hf : List.foldl (fun a c => 8 * a + (UInt8.toNat c - 48)) 0 [x, y, z] = 64 * i + 8 * j + k := by
    simp only [List.foldl, i2, j2, k2]; omega
  have ho : octalByte x y z = UInt8.ofNat (64 * i + 8 * j + k) := by
    unfold octalByte
    rw [i2, j2, k2]
    congr 1
    omega
  unfold octal
  rw [hf, ho]
  by_cases h : 64 * i + 8 * j + k ≤ 255
  · left
    simp [h]
  · right
    refine ⟨by simp [h], ?_⟩
    omega

theorem loose_append {v w v' w' : Bytes} (h : Loose v w) (h' : Loose v' w') : Loose (v ++ v') (w ++ w') := by
  induction h with
  | nil => exact h'
  | same c v w _ ih => exact .same c _ _ ih
  | cr v w _ ih => exact .cr _ _ ih
  | crlf v w _ ih => exact .crlf _ _ ih
  | backslash c v w _ ih => exact .backslash c _ _ ih
  | octal x y z v w hx _ ih => exact .octal x y z _ _ hx ih

theorem unescape_unknown : ∀ c : Byte, (c ∈ namedEscapes.map (·.1)) ∨ unescape c = [92, c] :=
  forall_u8 (fun c => (c ∈ namedEscapes.map (·.1)) ∨ unescape c = [92, c]) (by decide +kernel)

theorem strLoop_literal {v t : Bytes} (h : LitText v t) : ∃ w, Loose v w ∧ ∀ d x, strLoop d (t ++ 41 :: x) = pre w (strLoop d (41 :: x)) := by
  induction h with
  | nil => exact ⟨[], .nil, fun d x => by rw [pre_nil]; rfl⟩
  | plain c v t h1 h2 h3 _ _ ih =>
    obtain ⟨w, hl, ih⟩ := ih
    exact ⟨c :: w, .same c _ _ hl, fun d x => by rw [List.cons_append, strLoop_other d c _ h1 h2 h3, ih, pre_pre]; rfl⟩
  | paren v t v' t' _ _ ih ih' =>
    obtain ⟨w, hl, ih⟩ := ih
    obtain ⟨w', hl', ih'⟩ := ih'
    refine ⟨40 :: (w ++ 41 :: w'), .same 40 _ _ (loose_append hl (.same 41 _ _ hl')), fun d x => ?_⟩
    have : (40 :: (t ++ 41 :: t')) ++ 41 :: x = 40 :: (t ++ 41 :: (t' ++ 41 :: x)) := by simp
    rw [this, strLoop_open, ih, strLoop_close, ih', pre_pre, pre_pre, pre_pre]
    congr 1; simp
  | named l b v t hl _ ih =>
    obtain ⟨w, hw, ih⟩ := ih
    refine ⟨b :: w, .same b _ _ hw, fun d x => ?_⟩
    have key : ∀ p ∈ namedEscapes, isOct p.1 = false ∧ (p.1 == 13) = false ∧ (p.1 == 10) = false ∧ unescape p.1 = [p.2] := by decide +kernel
    obtain ⟨k1, k2, k3, k4⟩ := key _ hl
    simp only at k1 k2 k3 k4
    rw [List.cons_append, List.cons_append, strLoop_bs]
    simp only [k1, k2, k3, k4, Bool.false_eq_true, if_false]
    rw [ih, pre_pre]; rfl
  | oct1 b a v t ha hn _ ih =>
    obtain ⟨w, hw, ih⟩ := ih
    refine ⟨b :: w, .same b _ _ hw, fun d x => ?_⟩
    obtain ⟨c, r, e, hc⟩ := notOct_of (x := x) hn
    obtain ⟨_, h1, h2⟩ := octDig_val ha
    rw [List.cons_append, List.cons_append, strLoop_bs]
    simp only [h2, if_true]
    rw [e]
    simp only [hc, Bool.false_eq_true, if_false]
    rw [← e, ih, octal_val [a] b (by simp [h1]), pre_pre]; rfl
  | oct2 b a a' v t ha ha' hn _ ih =>
    obtain ⟨w, hw, ih⟩ := ih
    refine ⟨b :: w, .same b _ _ hw, fun d x => ?_⟩
    obtain ⟨c, r, e, hc⟩ := notOct_of (x := x) hn
    obtain ⟨_, h1, h2⟩ := octDig_val ha
    obtain ⟨_, h3, h4⟩ := octDig_val ha'
    rw [List.cons_append, List.cons_append, List.cons_append, strLoop_bs]
    simp only [h2, h4, if_true]
    rw [e]
    simp only [hc, Bool.false_eq_true, if_false]
    rw [← e, ih, octal_val [a, a'] b (by simp [h1, h3]; omega), pre_pre]; rfl
  | oct3 a a' a'' v t ha ha' ha'' _ ih =>
    obtain ⟨w, hw, ih⟩ := ih
    have h2 : isOct a = true := by obtain ⟨_, h⟩ := ha; exact (octDig_val h).2.2
    have h4 : isOct a' = true := by obtain ⟨_, h⟩ := ha'; exact (octDig_val h).2.2
    have h6 : isOct a'' = true := by obtain ⟨_, h⟩ := ha''; exact (octDig_val h).2.2
    have step : ∀ d x, strLoop d ((92 :: a :: a' :: a'' :: t) ++ 41 :: x) = pre (octal [a, a', a''] ++ w) (strLoop d (41 :: x)) := by
      intro d x
      rw [List.cons_append, List.cons_append, List.cons_append, List.cons_append, strLoop_bs]
      simp only [h2, h4, h6, if_true]
      rw [ih, pre_pre]
    rcases octal_over ha ha' ha'' with h | ⟨h, hx⟩
    · exact ⟨octalByte a a' a'' :: w, .same _ _ _ hw, fun d x => by rw [step, h]; rfl⟩
    · exact ⟨92 :: a :: a' :: a'' :: w, .octal a a' a'' _ _ hx hw, fun d x => by rw [step, h]; rfl⟩
  | contLF v t _ ih =>
    obtain ⟨w, hw, ih⟩ := ih
    refine ⟨w, hw, fun d x => ?_⟩
    rw [List.cons_append, List.cons_append, strLoop_bs]
    exact ih d x
  | contCRLF v t _ ih =>
    obtain ⟨w, hw, ih⟩ := ih
    refine ⟨w, hw, fun d x => ?_⟩
    rw [List.cons_append, List.cons_append, List.cons_append, strLoop_bs]
    exact ih d x
  | contCR v t hn _ ih =>
    obtain ⟨w, hw, ih⟩ := ih
    refine ⟨w, hw, fun d x => ?_⟩
    rw [List.cons_append, List.cons_append, strLoop_bs]
    have h1 : isOct 13 = false := rfl
    simp only [h1, Bool.false_eq_true, if_false, beq_self_eq_true, if_true]
    cases t with
    | nil => exact ih d x
    | cons c t =>
      have hc : (c == 10) = false := by
        have := notStart_cons hn
        simpa using this
      simp only [List.cons_append, hc, Bool.false_eq_true, if_false]
      exact ih d x
  | rawCR v t _ _ ih =>
    obtain ⟨w, hw, ih⟩ := ih
    exact ⟨13 :: w, .cr _ _ hw, fun d x => by rw [List.cons_append, strLoop_other d 13 _ (by decide) (by decide) (by decide), ih, pre_pre]; rfl⟩
  | rawCRLF v t _ ih =>
    obtain ⟨w, hw, ih⟩ := ih
    exact ⟨13 :: 10 :: w, .crlf _ _ hw, fun d x => by
      rw [List.cons_append, List.cons_append, strLoop_other d 13 _ (by decide) (by decide) (by decide),
        strLoop_other d 10 _ (by decide) (by decide) (by decide), ih, pre_pre, pre_pre]; rfl⟩
  | unknown c v t hn ho h10 h13 _ ih =>
    obtain ⟨w, hw, ih⟩ := ih
    refine ⟨92 :: c :: w, .backslash c _ _ hw, fun d x => ?_⟩
    have h1 : isOct c = false := by
      cases h : isOct c with
      | false => rfl
      | true => exact absurd (isOct_octDig c h) ho
    have hu : unescape c = [92, c] := by
      rcases unescape_unknown c with h | h
      · obtain ⟨p, hp, e⟩ := List.mem_map.mp h
        exact absurd (by rw [← e]; exact hp) (hn p.2)
      · exact h
    rw [List.cons_append, List.cons_append, strLoop_bs]
    simp only [h1, h10, h13, Bool.false_eq_true, if_false, beq_iff_eq, hu]
    rw [ih, pre_pre]; rfl

/-- C57, partial: whatever is written in the syntax of the standard, the string is read to its closing parenthesis and no further, and the value
delivered is that of the standard but for the three forms: a raw end of line stays as it is written, a backslash which should be ignored stays, and so
do the digits of an octal code above 377. Missing: there the value is not the one of the standard (counterexamples in Props/Parser). -/
theorem C57_delivered_partial (cfg : Cfg) (hc : cfg.NoDiv) (v t x : Bytes) (h : LitText v t) :
    ∃ w, parseObject cfg (40 :: (t ++ 41 :: x)) = .ok (.str w, x) ∧ Loose v w := by
  obtain ⟨w, hl, hw⟩ := strLoop_literal h
  refine ⟨w, ?_, hl⟩
  apply parseObject_of_fuel hc 1
  rw [objectP_start rfl, objBody_str]
  unfold stringP
  rw [hw, strLoop_close0]
  simp [pre]

/-- The forms of C14 are those of the standard without the three: their values are the standard's. -/
theorem octalByte_val {b x y z : Byte} (hx : OctDigit (b.toNat / 64) x) (hy : OctDigit (b.toNat / 8 % 8) y) (hz : OctDigit (b.toNat % 8) z) : octalByte x y z = b := by
  obtain ⟨_, h1, _⟩ := octDig_val hx
  obtain ⟨_, h2, _⟩ := octDig_val hy
  obtain ⟨_, h3, _⟩ := octDig_val hz
  unfold octalByte
  rw [h1, h2, h3, show (48 + b.toNat / 64 - 48) * 64 + (48 + b.toNat / 8 % 8 - 48) * 8 + (48 + b.toNat % 8 - 48) = b.toNat by omega]
  simp

theorem C57_regular_partial (cfg : Cfg) (hc : cfg.NoDiv) (v t x : Bytes) (h : StrText v t) :
    LitText v t ∧ parseObject cfg (40 :: (t ++ 41 :: x)) = .ok (.str v, x) := by
  refine ⟨?_, C14_string cfg hc v t x h⟩
  clear x hc cfg
  induction h with
  | nil => exact .nil
  | plain c v t h1 h2 h3 h4 _ ih => exact .plain c v t h1 h2 h3 h4 ih
  | paren v t v' t' _ _ ih ih' => exact .paren v t v' t' ih ih'
  | named l b v t hl _ ih => exact .named l b v t hl ih
  | oct1 b a v t ha hn _ ih => exact .oct1 b a v t ha hn ih
  | oct2 b a a' v t ha ha' hn _ ih => exact .oct2 b a a' v t ha ha' hn ih
  | oct3 b a a' a'' v t ha ha' ha'' _ ih =>
    rw [← octalByte_val ha ha' ha'']
    exact .oct3 a a' a'' v t ⟨_, ha⟩ ⟨_, ha'⟩ ⟨_, ha''⟩ ih
  | contLF v t _ ih => exact .contLF v t ih
  | contCRLF v t _ ih => exact .contCRLF v t ih
  | contCR v t hn _ ih => exact .contCR v t hn ih

/-- `(a\q\501` CR LF `b)` stands for `aqA` LF `b`. -/
theorem literal_sample : LitText (b!"aqA\nb") (b!"a\\q\\501\r\nb") :=
  .plain 97 _ _ (by decide) (by decide) (by decide) (by decide)
    (.unknown 113 _ _ (fun b h => by simp [namedEscapes] at h) (by rintro ⟨k, hk⟩; exact absurd (List.mem_of_getElem? hk) (by decide)) (by decide) (by decide)
      (.oct3 53 48 49 _ _ ⟨5, rfl⟩ ⟨0, rfl⟩ ⟨1, rfl⟩ (.rawCRLF _ _ (.plain 98 _ _ (by decide) (by decide) (by decide) (by decide) .nil))))

example : ∃ w, parseObject fileCfg (40 :: (b!"a\\q\\501\r\nb" ++ 41 :: b!" rest")) = .ok (.str w, b!" rest") ∧ Loose (b!"aqA\nb") w :=
  C57_delivered_partial fileCfg fileCfg_noDiv _ _ _ literal_sample

/-- C72, partial: within the hexadecimal syntax it is of no effect how the first string of ID is written (upper or lower case, white space, a final 0
left out): the two spellings of the same digits are read as the same object, and so every password is answered in the same way. Missing: literal strings
(counterexample). -/
theorem C72_hexadecimal_partial (C : Crypto) (d₁ d₂ t₁ t₂ x : Bytes) (h₁ : HexText d₁ t₁) (h₂ : HexText d₂ t₂) (same : padHex d₁ = padHex d₂) :
    ∃ o₁ o₂, parseObject fileCfg (60 :: (t₁ ++ 62 :: x)) = .ok (o₁, x) ∧ parseObject fileCfg (60 :: (t₂ ++ 62 :: x)) = .ok (o₂, x) ∧
      ∀ rest d password, mkHandler C (some (.arr (o₁ :: rest))) d password = mkHandler C (some (.arr (o₂ :: rest))) d password := by
  refine ⟨_, _, C17_hexstring fileCfg fileCfg_noDiv d₁ t₁ x h₁, C17_hexstring fileCfg fileCfg_noDiv d₂ t₂ x h₂, ?_⟩
  intro rest d password
  rw [same]

/-- `<A0>` and `<a >` -/
example : HexText (b!"A0") (b!"A0") ∧ HexText (b!"A") (b!"a ") ∧ padHex (b!"A0") = padHex (b!"A") :=
  ⟨.digit 10 65 65 _ _ rfl (.inl rfl) (.digit 0 48 48 _ _ rfl (.inl rfl) .nil), .digit 10 65 97 _ _ rfl (.inr rfl) (.ws 32 _ _ (by unfold WS; decide) .nil), rfl⟩

end PdfReader
