/-
  C56, C82, C83: CCITT fax.
-/
import Verif.Lemmas.FaxLines

namespace PdfReader
open Spec

theorem wide_init (w : Nat) (align rev : Bool) : Wide w rev 0 (Fax.init w align rev) :=
  ⟨rfl, rfl, by simp [Fax.init], by simp [Fax.init], by simp [Fax.init], by simp [Fax.init]; omega, [], by simp, rfl⟩

/-- C56: whatever the data are, the decoder delivers lines of exactly `w` pixels, or says that the data are invalid. -/
theorem C56_width (w : Nat) (hw : 0 < w) (align black : Bool) (data : Bytes) :
    faxDecode data (some (-1)) (some w) align black = .error .invalidData ∨
    ∃ out rows, faxDecode data (some (-1)) (some w) align black = .ok out ∧ (∀ row ∈ rows, row.length = w) ∧ ImageBits black rows (dataBits out) := by
  obtain ⟨h, hi⟩ := wide_feed w hw black data _ (wide_init w align black)
  obtain ⟨rows, hr, hb⟩ := h.buf
  unfold faxDecode
  rw [if_pos rfl]
  dsimp only
  generalize Fax.feed (Fax.init w align black) data = r at hi hb
  obtain ⟨s, e⟩ := r
  have hout : ∃ out rows, (Except.ok s.buf : Except FaxExc Bytes) = .ok out ∧ (∀ row ∈ rows, row.length = w) ∧ ImageBits black rows (dataBits out) :=
    ⟨s.buf, rows, rfl, hr, by rw [show s.buf = _ from hb]; exact outputLines_bits black rows⟩
  cases e with
  | go => exact .inr hout
  | skip => exact .inr hout
  | eofb => exact .inr hout
  | invalid => exact .inl rfl
  | index => exact absurd rfl hi

/-- The size of the result: whole lines of whole bytes. -/
theorem C56_size (w : Nat) (hw : 0 < w) (align black : Bool) (data out : Bytes) (h : faxDecode data (some (-1)) (some w) align black = .ok out) :
    ∃ n, out.length = n * ((w + 7) / 8) := by
  rcases C56_width w hw align black data with e | ⟨out', rows, e, hr, hb⟩
  · rw [e] at h; cases h
  · rw [e] at h
    cases h
    refine ⟨rows.length, ?_⟩
    have hlen : (dataBits out).length = 8 * out.length := by
      clear e hb
      induction out with
      | nil => rfl
      | cons b bs ih => rw [dataBits_cons, List.length_append, ih, masks_length, List.length_cons]; omega
    have hrows : (dataBits out).length = rows.length * (8 * ((w + 7) / 8)) := by
      rw [show dataBits out = _ from hb]
      clear hb hlen e
      induction rows with
      | nil => simp
      | cons row rows ih =>
        have hrow := hr row (by simp)
        have hl : (if black then row.map (!·) else row).length = w := by cases black <;> simp [hrow]
        rw [List.flatMap_cons, List.length_append, ih (fun r h => hr r (by simp [h])), List.length_append, hl, List.length_replicate, hrow, List.length_cons, Nat.succ_mul rows.length (8 * ((w + 7) / 8))]
        have : w + (8 - w % 8) % 8 = 8 * ((w + 7) / 8) := by omega
        omega
    have : 8 * out.length = 8 * (rows.length * ((w + 7) / 8)) := by rw [← hlen, hrows, ← Nat.mul_assoc, ← Nat.mul_assoc, Nat.mul_comm rows.length 8]
    omega

/-- C82: Group 4 data decode to the pixels of the image, whatever modes the encoder chose, with or without byte alignment, in either polarity. -/
theorem C82_decodes (w : Nat) (hw : 0 < w) (align black : Bool) (rows : List (List Bool)) (data : Bytes) (h : FaxData w align rows data) :
    ∃ out, faxDecode data (some (-1)) (some w) align black = .ok out ∧ ImageBits black rows (dataBits out) := by
  obtain ⟨bits, rest, hlines, hbits, hend⟩ := h
  have hstart : AtStart (Fax.init w align black) w align (List.replicate w true) := ⟨rfl, rfl, rfl, by simp, rfl, rfl, rfl, rfl⟩
  have hr : align = true → 8 ∣ rest.length := by
    intro ha
    subst ha
    obtain ⟨k, hk⟩ := dataBits_dvd data
    obtain ⟨j, hj⟩ := lines_dvd _ _ _ _ hlines
    rw [hbits, List.length_append] at hk
    exact ⟨k - j, by omega⟩
  obtain ⟨s1, e1, hw1, hb1⟩ := lines_run w hw align _ rows bits hlines _ rest hstart hr
  obtain ⟨s2, e2, hb2⟩ := run_end s1 rest hw1 hend
  refine ⟨s2.buf, ?_, ?_⟩
  · unfold faxDecode
    rw [if_pos rfl]
    dsimp only
    rw [feed_run, hbits, e1, e2]
  · rw [hb2, hb1]
    exact outputLines_bits black rows

/-! Every image has such data. -/

theorem run_exists (c : Bool) : ∀ n : Nat, ∃ bits, RunCode c n bits := by
  intro n
  induction n using Nat.strongRecOn with
  | _ n ih =>
    rcases Nat.lt_or_ge n 64 with h | h
    · cases c
      · exact ⟨_, .terminating n _ (List.getElem?_eq_getElem (l := blackTerminating) h)⟩
      · exact ⟨_, .terminating n _ (List.getElem?_eq_getElem (l := whiteTerminating) h)⟩
    · obtain ⟨bits, hb⟩ := ih (n - 64) (by omega)
      have hn : n = 64 * (0 + 1) + (n - 64) := by omega
      rw [hn]
      cases c
      · exact ⟨_, .makeUp 0 _ _ _ rfl hb⟩
      · exact ⟨_, .makeUp 0 _ _ _ rfl hb⟩

theorem runEnd_exists (row : List Bool) (c : Bool) : ∀ (k a : Nat), row.length - a = k → a ≤ row.length → ∃ e, RunEnd row a c e := by
  intro k
  induction k with
  | zero => intro a hk ha; exact ⟨a, Nat.le_refl a, ha, fun h => by omega, fun j h1 h2 => by omega⟩
  | succ k ih =>
    intro a hk ha
    by_cases h : row[a]? = some c
    · obtain ⟨e, h1, h2, h3, h4⟩ := ih (a + 1) (by omega) (by omega)
      refine ⟨e, by omega, h2, h3, ?_⟩
      intro j hj hj'
      by_cases hja : j = a
      · subst hja; exact fun hx => hx h
      · exact h4 j (by omega) hj'
    · exact ⟨a, Nat.le_refl a, ha, fun _ => h, fun j h1 h2 => by omega⟩

theorem coded_exists (ref row : List Bool) : ∀ (k : Nat) (a0 : Int), row.length - a0.toNat = k → -1 ≤ a0 → a0 ≤ row.length → 0 < row.length → ∃ bits, Coded ref row a0 true bits := by
  intro k
  induction k using Nat.strongRecOn with
  | _ k ih =>
    intro a0 hk h1 h2 hpos
    by_cases hend : a0 = row.length
    · rw [hend]; exact ⟨_, .done true⟩
    · obtain ⟨a1, hr1⟩ := runEnd_exists row true _ a0.toNat rfl (by omega)
      obtain ⟨a2, hr2⟩ := runEnd_exists row false _ a1 rfl hr1.2.1
      obtain ⟨b1, hb1⟩ := run_exists true (a1 - a0.toNat)
      obtain ⟨b2, hb2⟩ := run_exists false (a2 - a1)
      have hprog : a0.toNat < a2 := by
        have := hr1.1
        have := hr2.1
        rcases Nat.lt_or_ge a0.toNat a1 with hlt | hge
        · omega
        · have ha : a1 = a0.toNat := by omega
          rcases Nat.lt_or_ge a1 a2 with hlt | hge'
          · omega
          · exfalso
            have ha2 : a2 = a1 := by omega
            have hin : a1 < row.length := by omega
            have n1 : row[a1]? ≠ some true := hr1.2.2.1 hin
            have n2 : row[a2]? ≠ some false := hr2.2.2.1 (by omega)
            subst ha2
            rw [List.getElem?_eq_getElem hin] at n1 n2
            generalize row[a2] = p at n1 n2
            cases p <;> simp at n1 n2
      obtain ⟨bits, hc⟩ := ih (row.length - a2) (by have := hr2.2.1; omega) (a2 : Int) (by simp) (by omega) (by have := hr2.2.1; omega) hpos
      exact ⟨_, .horizontal a0 true a1 a2 b1 b2 bits (by omega) hr1 hr2 hb1 hb2 hc⟩

theorem lines_exist (w : Nat) (hw : 0 < w) (align : Bool) (rows : List (List Bool)) : ∀ ref : List Bool, (∀ row ∈ rows, row.length = w) → ∃ bits, Lines w align ref rows bits := by
  induction rows with
  | nil => intro ref _; exact ⟨[], .nil ref⟩
  | cons row rows ih =>
    intro ref h
    have hrow := h row (by simp)
    obtain ⟨rest, hr⟩ := ih row (fun r hm => h r (by simp [hm]))
    obtain ⟨code, hc⟩ := coded_exists ref row _ (-1) rfl (by omega) (by omega) (by omega)
    cases align with
    | false => exact ⟨_, .cons ref row rows code [] rest hrow hc rfl hr⟩
    | true =>
      refine ⟨_, .cons ref row rows code (List.replicate ((8 - code.length % 8) % 8) false) rest hrow hc ⟨?_, ?_⟩ hr⟩
      · rw [List.length_replicate]; omega
      · rw [List.length_append, List.length_replicate]
        omega

/-- C82: every image has Group 4 data, and these decode to it. -/
theorem C82_every_image (w : Nat) (hw : 0 < w) (align black : Bool) (rows : List (List Bool)) (hr : ∀ row ∈ rows, row.length = w) :
    ∃ data out, FaxData w align rows data ∧ faxDecode data (some (-1)) (some w) align black = .ok out ∧ ImageBits black rows (dataBits out) := by
  obtain ⟨bits, hl⟩ := lines_exist w hw align rows (List.replicate w true) hr
  have hd : FaxData w align rows (packBits ((bits.length + 7) / 8) bits) := by
    refine ⟨bits, List.replicate (8 * ((bits.length + 7) / 8) - bits.length) false, hl, packBits_bits _ _ (by omega), .inr ⟨?_, ?_⟩⟩
    · rw [List.length_replicate]; omega
    · intro b hb; exact (List.mem_replicate.mp hb).2
  obtain ⟨out, ho, hb⟩ := C82_decodes w hw align black rows _ hd
  exact ⟨_, out, hd, ho, hb⟩

/-- A line of 10 pixels with a black run of 3 pixels, twice, in horizontal and vertical mode. -/
def sampleRow : List Bool := [true, true, false, false, false, true, true, true, true, true]

theorem sampleFax : FaxData 10 false [sampleRow, sampleRow] [0x2F, 0x78, 0x00, 0x80, 0x08] := by
  have first : Coded (List.replicate 10 true) sampleRow (-1) true (bits!"001" ++ (bits!"0111" ++ (bits!"10" ++ (bits!"1" ++ [])))) := by
    refine .horizontal (-1) true 2 5 _ _ _ (by decide) ⟨by decide, by decide, by decide, ?_⟩ ⟨by decide, by decide, by decide, ?_⟩ (.terminating 2 _ rfl) (.terminating 3 _ rfl)
      (.vertical 5 true 10 10 bits!"1" _ (by decide) ⟨by decide, by decide, fun h => absurd h (by decide), ?_⟩ ⟨by decide, by decide, by decide, ?_⟩ (by decide) (.done false))
    · intro j _ h; exact (by decide : ∀ j < 2, ¬ sampleRow[j]? ≠ some true) j h
    · intro j h1 h; exact (by decide : ∀ j < 5, 2 ≤ j → ¬ sampleRow[j]? ≠ some false) j h h1
    · intro j _ h ⟨_, h2⟩; exact (by decide : ∀ j < 10, ¬ (List.replicate 10 true)[j]? ≠ some true) j h h2
    · intro j h1 h; exact (by decide : ∀ j < 10, 5 ≤ j → ¬ sampleRow[j]? ≠ some true) j h h1
  have second : Coded sampleRow sampleRow (-1) true (bits!"1" ++ (bits!"1" ++ (bits!"1" ++ []))) := by
    refine .vertical (-1) true 2 2 bits!"1" _ (by decide) ⟨by decide, by decide, fun _ => ⟨⟨by decide, by decide⟩, by decide⟩, ?_⟩ ⟨by decide, by decide, by decide, ?_⟩ (by decide)
      (.vertical 2 false 5 5 bits!"1" _ (by decide) ⟨by decide, by decide, fun _ => ⟨⟨by decide, by decide⟩, by decide⟩, ?_⟩ ⟨by decide, by decide, by decide, ?_⟩ (by decide)
        (.vertical 5 true 10 10 bits!"1" _ (by decide) ⟨by decide, by decide, fun h => absurd h (by decide), ?_⟩ ⟨by decide, by decide, by decide, ?_⟩ (by decide) (.done false)))
    · intro j _ h ⟨_, h2⟩; exact (by decide : ∀ j < 2, ¬ sampleRow[j]? ≠ some true) j h h2
    · intro j _ h; exact (by decide : ∀ j < 2, ¬ sampleRow[j]? ≠ some true) j h
    · intro j h1 h ⟨_, h2⟩; exact (by decide : ∀ j < 5, 3 ≤ j → ¬ sampleRow[j]? ≠ some false) j h h1 h2
    · intro j h1 h; exact (by decide : ∀ j < 5, 2 ≤ j → ¬ sampleRow[j]? ≠ some false) j h h1
    · intro j h1 h ⟨_, h2⟩; exact (by decide : ∀ j < 10, 6 ≤ j → ¬ sampleRow[j]? ≠ some true) j h h1 h2
    · intro j h1 h; exact (by decide : ∀ j < 10, 5 ≤ j → ¬ sampleRow[j]? ≠ some true) j h h1
  exact ⟨_, bits!"000000000001000000000001000", .cons _ _ _ _ [] _ rfl first rfl (.cons _ _ _ _ [] _ rfl second rfl (.nil _)), by decide, .inl ⟨bits!"000", rfl⟩⟩

example : faxDecode [0x2F, 0x78, 0x00, 0x80, 0x08] (some (-1)) (some 10) false false = .ok [0xC7, 0xC0, 0xC7, 0xC0] := by decide +kernel
example : faxDecode [0x2F, 0x78, 0x00, 0x80, 0x08] (some (-1)) (some 10) false true = .ok [0x38, 0x00, 0x38, 0x00] := by decide +kernel

/-- C83 is false: Columns has no default value (ISO 32000-1, Table 11: 1728); -/
theorem C83_columns_counterexample (data : Bytes) (align black : Bool) : faxDecode data (some (-1)) none align black = .error .typeError := rfl

/-- and Group 3 data, K ≥ 0 or missing, are delivered as they are. -/
theorem C83_group3_counterexample (data : Bytes) (k : Option Int) (columns : Option Nat) (align black : Bool) (hk : ∀ n, k = some n → 0 ≤ n) :
    faxDecode data k columns align black = .ok data := by
  unfold faxDecode
  rw [if_neg]
  intro h
  have := hk _ h
  omega

/-- C83, partial: with Columns given and K = -1 the data decode by the standard. Missing: other values of K, and Columns left out (counterexamples). -/
theorem C83_group4_partial (k : Int) (hk : k = -1) (w : Nat) (hw : 0 < w) (align black : Bool) (rows : List (List Bool)) (data : Bytes)
    (h : FaxData w align rows data) : ∃ out, faxDecode data (some k) (some w) align black = .ok out ∧ ImageBits black rows (dataBits out) := by
  subst hk
  exact C82_decodes w hw align black rows data h

end PdfReader
