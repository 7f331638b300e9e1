/-
  C55, C87, C88: dates and document metadata.
-/
import Verif.Spec.Metadata
import Verif.Lemmas.Basic

namespace PdfReader
open Spec

/-! ### Dates -/

theorem good_digit {L : DateLib} (hL : DateLib.Good L) (n : Nat) : L.digit (48 + n % 10) = true := by
  rw [hL.digit _ (by omega)]
  simp only [Bool.and_eq_true, decide_eq_true_eq]
  omega

theorem not_z (n : Nat) : (if 48 + n % 10 = 90 then 43 else 48 + n % 10) = 48 + n % 10 := if_neg (by omega)

/-- The text with all characters told. -/
theorem fromPdf_full {L : DateLib} (hL : DateLib.Good L) (y mo d h mi s oh om c : Nat) (hc : c = 43 ∨ c = 45 ∨ c = 90) :
    fromPdfDate L ([68, 58] ++ (four y ++ (two mo ++ (two d ++ (two h ++ (two mi ++ (two s ++ (c :: (two oh ++ ([39] ++ (two om ++ [39]))))))))))) =
      L.parse (four y ++ ([45] ++ (two mo ++ ([45] ++ (two d ++ ([84] ++ (two h ++ ([58] ++ (two mi ++ ([58] ++ (two s ++ ((if c = 90 then 43 else c) :: (two oh ++ ([58] ++ two om)))))))))))))) := by
  have hm : matchClasses (dateClasses L) ([68, 58] ++ (four y ++ (two mo ++ (two d ++ (two h ++ (two mi ++ (two s ++ (c :: (two oh ++ ([39] ++ (two om ++ [39])))))))))))
      = some [] := by
    have hs : (c == 43 || c == 45 || c == 90 || c == 122) = true := by rcases hc with rfl | rfl | rfl <;> rfl
    simp only [dateClasses, four, two, List.replicate, List.cons_append, List.nil_append, matchClasses, good_digit hL, hs, beq_self_eq_true, if_true]
  unfold fromPdfDate
  rw [hm]
  dsimp only
  rw [if_pos (Or.inl rfl)]
  refine congrArg L.parse ?_
  simp only [isoForm, slice, four, two, List.cons_append, List.nil_append, List.drop_succ_cons, List.drop_zero, List.take_succ_cons, List.take_zero, List.map_cons, List.map_nil, Nat.reduceSub, not_z]
  rfl

/-- C55: a date with all its fields and the apostrophe at the end is read as the moment it denotes. Missing: the shorter forms. -/
theorem C55_full_partial (L : DateLib) (hL : DateLib.Good L) (m : Moment) (t : Text) (hv : Valid m) (ht : DateText m t) (hl : t.length = 23) : fromPdfDate L t = .ok m := by
  cases ht with
  | year y => simp [four, two] at hl
  | month y mo => simp [four, two] at hl
  | day y mo d => simp [four, two] at hl
  | hour y mo d h => simp [four, two] at hl
  | minute y mo d h mi => simp [four, two] at hl
  | second y mo d h mi s off o ho =>
    cases ho with
    | none => simp [four, two] at hl
    | zulu => simp [four, two] at hl
    | hours off c _ _ => simp [four, two] at hl
    | full off c tail hs htail =>
      have : tail = [39] := by
        rcases htail with rfl | rfl
        · simp [four, two] at hl
        · rfl
      subst this
      rw [fromPdf_full hL y mo d h mi s (off.natAbs / 60) (off.natAbs % 60) c (by rcases hs with ⟨h, _⟩ | ⟨h, _⟩ | ⟨h, _⟩ <;> simp [h])]
      refine hL.parse ⟨y, mo, d, h, mi, s, off⟩ _ hv ?_
      dsimp only
      rcases hs with ⟨rfl, h⟩ | ⟨rfl, h⟩ | ⟨rfl, h⟩
      · exact Or.inl ⟨rfl, h⟩
      · exact Or.inr ⟨rfl, h⟩
      · exact Or.inl ⟨rfl, by omega⟩

theorem matchClasses_length (ps : List (Nat → Bool)) : ∀ (s rest : Text), matchClasses ps s = some rest → s.length = ps.length + rest.length := by
  induction ps with
  | nil => intro s rest h; cases h; simp
  | cons p ps ih =>
    intro s rest h
    cases s with
    | nil => cases h
    | cons c s =>
      unfold matchClasses at h
      split at h
      · have := ih s rest h
        simp only [List.length_cons]
        omega
      · cases h

/-- Texts of any other length than 23 and 24 are refused. -/
theorem fromPdf_length (L : DateLib) (t : Text) (h : t.length ≠ 23) (h' : t.length ≠ 24) : fromPdfDate L t = .error .valueError := by
  unfold fromPdfDate
  cases e : matchClasses (dateClasses L) t with
  | none => rfl
  | some rest =>
    have hlen : t.length = 23 + rest.length := by
      have := matchClasses_length _ _ _ e
      rw [this]
      rfl
    dsimp only
    rw [if_neg]
    rintro (rfl | rfl)
    · exact h hlen
    · exact h' hlen

/-- C55 is false for every shorter form: whatever the fields, it is refused. -/
theorem C55_short_counterexample (L : DateLib) (m : Moment) (t : Text) (ht : DateText m t) (hl : t.length ≠ 23) : fromPdfDate L t = .error .valueError := by
  refine fromPdf_length L t hl ?_
  cases ht with
  | year y => simp [four, two]
  | month y mo => simp [four, two]
  | day y mo d => simp [four, two]
  | hour y mo d h => simp [four, two]
  | minute y mo d h mi => simp [four, two]
  | second y mo d h mi s off o ho =>
    cases ho with
    | none => simp [four, two]
    | zulu => simp [four, two]
    | hours off c _ _ => simp [four, two]
    | full off c tail hs htail => rcases htail with rfl | rfl <;> simp [four, two]

theorem matchClasses_all (ps : List (Nat → Bool)) : ∀ (s rest : Text), matchClasses ps s = some rest → ∀ i, i < ps.length → ∃ p c, ps[i]? = some p ∧ s[i]? = some c ∧ p c = true := by
  induction ps with
  | nil => intro s rest _ i hi; simp at hi
  | cons p ps ih =>
    intro s rest h i hi
    cases s with
    | nil => cases h
    | cons c s =>
      unfold matchClasses at h
      split at h
      · rename_i hp
        cases i with
        | zero => exact ⟨p, c, rfl, rfl, hp⟩
        | succ i =>
          obtain ⟨q, x, h1, h2, h3⟩ := ih s rest h i (by simpa using hi)
          exact ⟨q, x, by simpa using h1, by simpa using h2, h3⟩
      · cases h

/-- C55: nothing is accepted which does not start with `D:` and a year. -/
theorem C55_refuses (L : DateLib) (t : Text) (h : fromPdfDate L t ≠ .error .valueError) :
    t[0]? = some 68 ∧ t[1]? = some 58 ∧ ∀ i, 2 ≤ i → i < 16 → ∃ c, t[i]? = some c ∧ L.digit c = true := by
  unfold fromPdfDate at h
  cases e : matchClasses (dateClasses L) t with
  | none => rw [e] at h; exact absurd rfl h
  | some rest =>
    have hall := matchClasses_all _ _ _ e
    refine ⟨?_, ?_, ?_⟩
    · obtain ⟨p, c, h1, h2, h3⟩ := hall 0 (by show 0 < 23; omega)
      cases (show some (· == 68) = some p from h1)
      rw [h2, show c = 68 from by simpa using h3]
    · obtain ⟨p, c, h1, h2, h3⟩ := hall 1 (by show 1 < 23; omega)
      cases (show some (· == 58) = some p from h1)
      rw [h2, show c = 58 from by simpa using h3]
    · intro i h2i hi
      obtain ⟨p, c, h1, h2, h3⟩ := hall i (by show i < 23; omega)
      have hp : some L.digit = some p := by
        rw [← h1]
        obtain ⟨j, rfl⟩ : ∃ j, i = 2 + j := ⟨i - 2, by omega⟩
        have : j < 14 := by omega
        show _ = ([(· == 68), (· == 58)] ++ List.replicate 14 L.digit ++ [fun c => c == 43 || c == 45 || c == 90 || c == 122] ++ [L.digit, L.digit, (· == 39), L.digit, L.digit, (· == 39)])[2 + j]?
        rw [List.append_assoc, List.append_assoc, List.getElem?_append_right (by simp), List.getElem?_append_left (by simp; omega)]
        have hr : (2 + j - [(fun c => c == 68 : Nat → Bool), (fun c => c == 58)].length) = j := by simp
        rw [hr, List.getElem?_replicate, if_pos this]
      cases hp
      exact ⟨c, h2, h3⟩

/-- A reference parser of ISO 8601 dates: the digits by their places. -/
def isoRead (t : Text) : Res Moment :=
  let n := fun i => t.getD i 0 - 48
  let z := fun i => n i * 10 + n (i + 1)
  let off : Int := (z 20 * 60 + z 23 : Nat)
  .ok ⟨z 0 * 100 + z 2, z 5, z 8, z 11, z 14, z 17, if t.getD 19 0 = 45 then -off else off⟩

/-- The hypotheses about the libraries can be met. -/
def sampleLib : DateLib := { digit := fun c => 48 ≤ c && c ≤ 57, parse := isoRead }

theorem days_le (y m : Nat) : daysIn y m ≤ 31 := by
  unfold daysIn
  split
  · split <;> omega
  · split <;> omega

theorem sampleLib_good : DateLib.Good sampleLib where
  digit := fun _ _ => rfl
  parse := by
    intro m c hv hc
    obtain ⟨y, mo, d, h, mi, s, off⟩ := m
    obtain ⟨h1, h2, h3, h4, h5, h6, h7, h8, h9, h10⟩ := hv
    dsimp only at *
    have := days_le y mo
    show isoRead _ = _
    have ho : ∀ (k : Nat), c = 43 ∧ 0 ≤ off ∨ c = 45 ∧ off ≤ 0 → k = off.natAbs → (if c = 45 then -(k : Int) else k) = off := by
      intro k h hk
      rcases h with ⟨rfl, h⟩ | ⟨rfl, h⟩
      · rw [if_neg (by decide)]; omega
      · rw [if_pos rfl]; omega
    simp only [isoRead, IsoText, four, two, List.cons_append, List.nil_append, List.getD_cons_succ, List.getD_cons_zero, Except.ok.injEq, Moment.mk.injEq, Nat.reduceAdd]
    refine ⟨by omega, by omega, by omega, by omega, by omega, by omega, ?_⟩
    refine ho _ hc ?_
    omega

example : fromPdfDate sampleLib (b!"D:20210212014204-01'30'".map (·.toNat)) = .ok ⟨2021, 2, 12, 1, 42, 4, -90⟩ :=
  C55_full_partial sampleLib sampleLib_good _ _ (by unfold Valid; decide) (DateText.second 2021 2 12 1 42 4 (-90) _ (.full (-90) 45 [39] (by unfold OffsetSign; decide) (Or.inr rfl))) rfl

example : fromPdfDate sampleLib (b!"D:20210212".map (·.toNat)) = .error .valueError := C55_short_counterexample sampleLib _ _ (DateText.day 2021 2 12) (by decide)

/-! ### UTF-8 -/

theorem ofNat_small (n : Nat) (h : n < 256) : (UInt8.ofNat n).toNat = n := by
  rw [UInt8.toNat_ofNat']; exact Nat.mod_eq_of_lt h

theorem utf8Tail_val (n : Nat) (h : n < 64) : utf8Tail (UInt8.ofNat (0x80 + n)) = some n := by
  unfold utf8Tail
  rw [ofNat_small _ (by omega), if_pos (by omega)]
  exact congrArg some (by omega)

theorem utf8First_char (x : Nat) (hx : Scalar x) (rest : Bytes) : utf8First (charUtf8 x ++ rest) = some (x, rest) := by
  unfold charUtf8
  split
  · rename_i h
    simp only [List.cons_append, List.nil_append, utf8First]
    rw [ofNat_small _ (by omega), if_pos h]
  · split
    · rename_i h1 h2
      simp only [List.cons_append, List.nil_append, utf8First]
      rw [ofNat_small _ (by omega), if_neg (by omega), if_neg (by omega), if_pos (by omega), utf8Tail_val _ (by omega)]
      simp only [Option.map_some, Option.some.injEq, Prod.mk.injEq, and_true]
      omega
    · split
      · rename_i h1 h2 h3
        simp only [List.cons_append, List.nil_append, utf8First]
        rw [ofNat_small _ (by omega), if_neg (by omega), if_neg (by omega), if_neg (by omega), if_pos (by omega), utf8Tail_val _ (by omega), utf8Tail_val _ (by omega)]
        dsimp only
        have hn : (0xE0 + x / 4096 - 0xE0) * 4096 + x / 64 % 64 * 64 + x % 64 = x := by omega
        rw [hn, if_neg]
        unfold Scalar at hx
        omega
      · rename_i h1 h2 h3
        unfold Scalar at hx
        simp only [List.cons_append, List.nil_append, utf8First]
        rw [ofNat_small _ (by omega), if_neg (by omega), if_neg (by omega), if_neg (by omega), if_neg (by omega), if_pos (by omega), utf8Tail_val _ (by omega), utf8Tail_val _ (by omega),
          utf8Tail_val _ (by omega)]
        dsimp only
        have hn : (0xF0 + x / 262144 - 0xF0) * 262144 + x / 4096 % 64 * 4096 + x / 64 % 64 * 64 + x % 64 = x := by omega
        rw [hn, if_neg (by omega)]

theorem charUtf8_length (x : Nat) : 1 ≤ (charUtf8 x).length := by
  unfold charUtf8
  split
  · simp
  · split
    · simp
    · split <;> simp

theorem utf8Loop_text (t : Text) : ∀ (n : Nat), (∀ x ∈ t, Scalar x) → (t.flatMap charUtf8).length ≤ n → utf8Loop n (t.flatMap charUtf8) = some t := by
  induction t with
  | nil => intro n _ _; cases n <;> rfl
  | cons x t ih =>
    intro n hs hn
    rw [List.flatMap_cons] at hn ⊢
    rw [List.length_append] at hn
    have h1 := charUtf8_length x
    cases n with
    | zero => omega
    | succ n =>
      cases e : charUtf8 x ++ t.flatMap charUtf8 with
      | nil =>
        have : (charUtf8 x ++ t.flatMap charUtf8).length = 0 := by rw [e]; rfl
        rw [List.length_append] at this
        omega
      | cons b s =>
        unfold utf8Loop
        rw [← e, utf8First_char x (hs x (List.mem_cons_self ..))]
        dsimp only
        rw [ih n (fun y hy => hs y (List.mem_cons_of_mem _ hy)) (by omega)]
        rfl

/-- UTF-8 is read back. -/
theorem utf8_decodes (t : Text) (hs : ∀ x ∈ t, Scalar x) : utf8Decode (t.flatMap charUtf8) = some t := utf8Loop_text t _ hs (Nat.le_refl _)

theorem utf8Tail_some {b : Byte} {u : Nat} (h : utf8Tail b = some u) : u < 64 ∧ b = UInt8.ofNat (0x80 + u) := by
  unfold utf8Tail at h
  split at h
  · rename_i hb
    have e := Option.some.inj h
    subst e
    refine ⟨by omega, ?_⟩
    rw [show 0x80 + (b.toNat - 0x80) = b.toNat by omega]
    exact (UInt8.ofNat_toNat).symm
  · cases h

theorem lead_byte {b : Byte} {n : Nat} (h : b.toNat = n) : b = UInt8.ofNat n := by
  rw [← h]; exact (UInt8.ofNat_toNat).symm

/-- Nothing but UTF-8 is read. -/
theorem utf8First_only {s r : Bytes} {x : Nat} (h : utf8First s = some (x, r)) : Scalar x ∧ s = charUtf8 x ++ r := by
  cases s with
  | nil => cases h
  | cons b s =>
    have hb := b.toNat_lt
    unfold utf8First at h
    dsimp only at h
    split at h
    · rename_i h1
      cases h
      refine ⟨Or.inl (by omega), ?_⟩
      unfold charUtf8
      rw [if_pos h1, UInt8.ofNat_toNat]
      rfl
    · split at h
      · cases h
      · split at h
        · cases s with
          | nil => cases h
          | cons c s =>
            dsimp only at h
            cases hc : utf8Tail c with
            | none => rw [hc] at h; cases h
            | some u =>
              rw [hc] at h
              obtain ⟨hu, ec⟩ := utf8Tail_some hc
              simp only [Option.map_some, Option.some.injEq, Prod.mk.injEq] at h
              obtain ⟨hx, hr⟩ := h
              refine ⟨Or.inl (by omega), ?_⟩
              unfold charUtf8
              rw [if_neg (by omega), if_pos (by omega), ← hr, ec, lead_byte (b := b) (n := 0xC0 + x / 64) (by omega), show x % 64 = u by omega]
              rfl
        · split at h
          · cases s with
            | nil => cases h
            | cons c s =>
              cases s with
              | nil => cases h
              | cons d s =>
                dsimp only at h
                cases hc : utf8Tail c with
                | none => rw [hc] at h; cases h
                | some u =>
                  cases hd : utf8Tail d with
                  | none => rw [hc, hd] at h; cases h
                  | some v =>
                    rw [hc, hd] at h
                    obtain ⟨hu, ec⟩ := utf8Tail_some hc
                    obtain ⟨hv, ed⟩ := utf8Tail_some hd
                    dsimp only at h
                    split at h
                    · cases h
                    · simp only [Option.some.injEq, Prod.mk.injEq] at h
                      obtain ⟨hx, hr⟩ := h
                      refine ⟨by unfold Scalar; omega, ?_⟩
                      unfold charUtf8
                      rw [if_neg (by omega), if_neg (by omega), if_pos (by omega), ← hr, ec, ed, lead_byte (b := b) (n := 0xE0 + x / 4096) (by omega), show x % 64 = v by omega,
                        show x / 64 % 64 = u by omega]
                      rfl
          · split at h
            · cases s with
              | nil => cases h
              | cons c s =>
                cases s with
                | nil => cases h
                | cons d s =>
                  cases s with
                  | nil => cases h
                  | cons e s =>
                    dsimp only at h
                    cases hc : utf8Tail c with
                    | none => rw [hc] at h; cases h
                    | some u =>
                      cases hd : utf8Tail d with
                      | none => rw [hc, hd] at h; cases h
                      | some v =>
                        cases he : utf8Tail e with
                        | none => rw [hc, hd, he] at h; cases h
                        | some w =>
                          rw [hc, hd, he] at h
                          obtain ⟨hu, ec⟩ := utf8Tail_some hc
                          obtain ⟨hv, ed⟩ := utf8Tail_some hd
                          obtain ⟨hw, ee⟩ := utf8Tail_some he
                          dsimp only at h
                          split at h
                          · cases h
                          · simp only [Option.some.injEq, Prod.mk.injEq] at h
                            obtain ⟨hx, hr⟩ := h
                            refine ⟨by unfold Scalar; omega, ?_⟩
                            unfold charUtf8
                            rw [if_neg (by omega), if_neg (by omega), if_neg (by omega), ← hr, ec, ed, ee, lead_byte (b := b) (n := 0xF0 + x / 262144) (by omega), show x % 64 = w by omega,
                              show x / 64 % 64 = v by omega, show x / 4096 % 64 = u by omega]
                            rfl
            · cases h

theorem utf8Loop_only : ∀ (n : Nat) (s : Bytes) (t : Text), utf8Loop n s = some t → (∀ x ∈ t, Scalar x) ∧ s = t.flatMap charUtf8
  | n, [], t, h => by
    have : t = [] := by cases n <;> (cases h; rfl)
    subst this
    exact ⟨(fun _ h => by cases h), rfl⟩
  | 0, _ :: _, _, h => by cases h
  | n + 1, b :: s, t, h => by
    unfold utf8Loop at h
    cases hf : utf8First (b :: s) with
    | none => rw [hf] at h; cases h
    | some p =>
      obtain ⟨x, r⟩ := p
      rw [hf] at h
      dsimp only at h
      cases hl : utf8Loop n r with
      | none => rw [hl] at h; cases h
      | some t' =>
        rw [hl] at h
        cases h
        obtain ⟨h1, h2⟩ := utf8First_only hf
        obtain ⟨h3, h4⟩ := utf8Loop_only n r t' hl
        refine ⟨fun y hy => ?_, by rw [h2, List.flatMap_cons, h4]⟩
        rcases List.mem_cons.mp hy with rfl | hy
        · exact h1
        · exact h3 y hy

/-- `bytes.decode()` reads UTF-8, and nothing else. -/
theorem utf8_iff (s : Bytes) (t : Text) : utf8Decode s = some t ↔ (∀ x ∈ t, Scalar x) ∧ s = t.flatMap charUtf8 :=
  ⟨utf8Loop_only _ s t, fun h => by rw [h.2]; exact utf8_decodes t h.1⟩

theorem utf8_ascii (t : Text) (h : ∀ x ∈ t, x < 128) : utf8Decode (t.map UInt8.ofNat) = some t := by
  have hm : t.map UInt8.ofNat = t.flatMap charUtf8 := by
    induction t with
    | nil => rfl
    | cons x t ih =>
      have hx := h x (List.mem_cons_self ..)
      rw [List.map_cons, List.flatMap_cons, ih fun y hy => h y (List.mem_cons_of_mem _ hy)]
      unfold charUtf8
      rw [if_pos (by omega)]
      rfl
  rw [hm]
  exact utf8_decodes t fun x hx => Or.inl (by have := h x hx; omega)

/-! ### Metadata -/

/-- What a user expects of a value of the Info dictionary. -/
inductive Expected (k : Bytes) : Obj → MetaVal → Prop
  | text (t : Text) (s : Bytes) : k ∉ [b!"CreationDate", b!"ModDate"] → TextString t s → Expected k (.str s) (.text t)
  | date (m : Moment) (t : Text) : k ∈ [b!"CreationDate", b!"ModDate"] → Valid m → DateText m t → Expected k (.str (t.map UInt8.ofNat)) (.date m)
  | other (o : Obj) : (∀ s, o ≠ .str s) → Expected k o (.raw o)

/-- The values for which the code delivers it: texts in ASCII, and dates with all fields. -/
def Simple : MetaVal → Bytes → Prop
  | .text _, s => ∀ b ∈ s, b.toNat < 128
  | .date _, s => s.length = 23
  | .raw _, _ => True

theorem offset_ascii {off : Int} {o : Text} (h : OffsetText off o) : ∀ x ∈ o, x < 128 := by
  have htwo : ∀ n x, x ∈ two n → x < 128 := by
    intro n x hx
    simp only [two, List.mem_cons, List.not_mem_nil, or_false] at hx
    omega
  have hsign : ∀ c, OffsetSign off c → c < 128 := by
    intro c hc
    unfold OffsetSign at hc
    omega
  cases h with
  | none => intro x hx; cases hx
  | zulu => intro x hx; simp at hx; omega
  | hours _ c hc _ =>
    intro x hx
    rcases List.mem_cons.mp hx with rfl | hx
    · exact hsign _ hc
    · exact htwo _ _ hx
  | full _ c tail hc ht =>
    intro x hx
    simp only [List.mem_cons, List.mem_append, List.not_mem_nil, or_false] at hx
    rcases hx with rfl | hx | rfl | hx | hx
    · exact hsign _ hc
    · exact htwo _ _ hx
    · decide
    · exact htwo _ _ hx
    · rcases ht with rfl | rfl
      · cases hx
      · simp at hx; omega

theorem date_ascii {m : Moment} {t : Text} (h : DateText m t) : ∀ x ∈ t, x < 128 := by
  have htwo : ∀ n x, x ∈ two n → x < 128 := by
    intro n x hx
    simp only [two, List.mem_cons, List.not_mem_nil, or_false] at hx
    omega
  have hfour : ∀ n x, x ∈ four n → x < 128 := by
    intro n x hx
    rcases List.mem_append.mp hx with h | h
    · exact htwo _ _ h
    · exact htwo _ _ h
  have hd : ∀ x, x ∈ ([68, 58] : Text) → x < 128 := by
    intro x hx
    simp only [List.mem_cons, List.not_mem_nil, or_false] at hx
    omega
  cases h with
  | year y =>
    intro x hx
    rcases List.mem_append.mp hx with h | h
    · exact hd _ h
    · exact hfour _ _ h
  | month y mo =>
    intro x hx
    simp only [List.mem_append] at hx
    rcases hx with h | h | h
    · exact hd _ h
    · exact hfour _ _ h
    · exact htwo _ _ h
  | day y mo d =>
    intro x hx
    simp only [List.mem_append] at hx
    rcases hx with h | h | h | h
    · exact hd _ h
    · exact hfour _ _ h
    · exact htwo _ _ h
    · exact htwo _ _ h
  | hour y mo d h =>
    intro x hx
    simp only [List.mem_append] at hx
    rcases hx with h | h | h | h | h
    · exact hd _ h
    · exact hfour _ _ h
    · exact htwo _ _ h
    · exact htwo _ _ h
    · exact htwo _ _ h
  | minute y mo d h mi =>
    intro x hx
    simp only [List.mem_append] at hx
    rcases hx with h | h | h | h | h | h
    · exact hd _ h
    · exact hfour _ _ h
    · exact htwo _ _ h
    · exact htwo _ _ h
    · exact htwo _ _ h
    · exact htwo _ _ h
  | second y mo d h mi s off o ho =>
    intro x hx
    simp only [List.mem_append] at hx
    rcases hx with h | h | h | h | h | h | h | h
    · exact hd _ h
    · exact hfour _ _ h
    · exact htwo _ _ h
    · exact htwo _ _ h
    · exact htwo _ _ h
    · exact htwo _ _ h
    · exact htwo _ _ h
    · exact offset_ascii ho _ h

theorem metaValue_expected (L : DateLib) (hL : DateLib.Good L) (k : Bytes) (o : Obj) (v : MetaVal) (h : Expected k o v) (hs : ∀ s, o = .str s → Simple v s) : metaValue L k (.raw o) = .ok v := by
  cases h with
  | text t s hk ht =>
    have hk' : ¬ (k = b!"CreationDate" ∨ k = b!"ModDate") := by simpa using hk
    have hsim : ∀ b ∈ s, b.toNat < 128 := hs _ rfl
    cases ht with
    | doc hd =>
      have ha : ∀ x ∈ t, x < 128 := by
        intro x hx
        have h1 := hsim _ (List.mem_map_of_mem hx)
        have h2 : x < 256 := by
          have := hd x hx
          unfold DocChar at this
          omega
        rwa [ofNat_small x h2] at h1
      unfold metaValue
      dsimp only
      rw [utf8_ascii t ha]
      dsimp only
      rw [if_neg hk']
    | utf16 hd => exact absurd (hsim 0xFE (List.mem_cons_self ..)) (by decide)
  | date m t hk hv ht =>
    have hk' : k = b!"CreationDate" ∨ k = b!"ModDate" := by simpa using hk
    have hl : t.length = 23 := by
      have h : (t.map UInt8.ofNat).length = 23 := hs _ rfl
      simpa using h
    unfold metaValue
    dsimp only
    rw [utf8_ascii t (date_ascii ht)]
    dsimp only
    rw [if_pos hk', C55_full_partial L hL m t hv ht hl]
  | other o ho =>
    cases o with
    | str s => exact absurd rfl (ho s)
    | _ => rfl

/-- C87: the metadata are the entries of the Info dictionary, in their order, texts as text and dates as moments. Missing: texts with characters
which are not in ASCII, and dates without all fields. -/
theorem C87_entries_partial (L : DateLib) (hL : DateLib.Good L) (num gen : Nat) (located : Nat → Nat → Res (Option InfoDict)) (es : List (Bytes × Obj × MetaVal))
    (h : ∀ e ∈ es, Expected e.1 e.2.1 e.2.2 ∧ ∀ s, e.2.1 = .str s → Simple e.2.2 s) (hloc : located num gen = .ok (some (es.map fun e => (e.1, .raw e.2.1)))) :
    metadata L (.ref num gen) located = .ok (some (es.map fun e => (e.1, e.2.2))) := by
  have hp : ∀ (es : List (Bytes × Obj × MetaVal)), (∀ e ∈ es, Expected e.1 e.2.1 e.2.2 ∧ ∀ s, e.2.1 = .str s → Simple e.2.2 s) →
      metaPass L (es.map fun e => (e.1, .raw e.2.1)) = .ok (es.map fun e => (e.1, e.2.2)) := by
    intro es
    induction es with
    | nil => intro _; rfl
    | cons e es ih =>
      intro h
      have he := h e (List.mem_cons_self ..)
      rw [List.map_cons]
      unfold metaPass
      rw [metaValue_expected L hL _ _ _ he.1 he.2]
      dsimp only
      rw [ih fun x hx => h x (List.mem_cons_of_mem _ hx)]
      rfl
  unfold metadata
  dsimp only
  rw [hloc]
  dsimp only
  rw [hp es h]
  rfl

example : metadata sampleLib (.ref 1 0) (fun _ _ => .ok (some [(b!"Title", .raw (.str b!"A b")), (b!"ModDate", .raw (.str b!"D:20210212014204Z00'00'")), (b!"Trapped", .raw (.name b!"True"))])) =
    .ok (some [(b!"Title", .text [65, 32, 98]), (b!"ModDate", .date ⟨2021, 2, 12, 1, 42, 4, 0⟩), (b!"Trapped", .raw (.name b!"True"))]) := by
  refine C87_entries_partial sampleLib sampleLib_good 1 0 _
    [(b!"Title", .str b!"A b", .text [65, 32, 98]), (b!"ModDate", .str b!"D:20210212014204Z00'00'", .date ⟨2021, 2, 12, 1, 42, 4, 0⟩), (b!"Trapped", .name b!"True", .raw (.name b!"True"))] ?_ rfl
  intro e he
  simp only [List.mem_cons, List.not_mem_nil, or_false] at he
  rcases he with rfl | rfl | rfl
  · refine ⟨.text [65, 32, 98] _ (by decide) (TextString.doc [65, 32, 98] ?_), ?_⟩
    · intro x hx
      simp only [List.mem_cons, List.not_mem_nil, or_false] at hx
      unfold DocChar
      omega
    · intro s e
      cases e
      show ∀ b ∈ b!"A b", b.toNat < 128
      decide
  · refine ⟨.date ⟨2021, 2, 12, 1, 42, 4, 0⟩ _ (by decide) (by unfold Valid; decide) (DateText.second 2021 2 12 1 42 4 0 _ (.full 0 90 [39] (by unfold OffsetSign; decide) (Or.inr rfl))), ?_⟩
    intro s e
    cases e
    rfl
  · exact ⟨.other _ (fun s e => nomatch e), fun s e => nomatch e⟩

/-- C87: without an Info entry there are no metadata. -/
theorem C87_missing (L : DateLib) (located : Nat → Nat → Res (Option InfoDict)) : metadata L .missing located = .ok none := rfl

/-- C87: beyond ASCII, text in UTF-8 is delivered, which PDF 1.7 does not know. -/
theorem C87_utf8 (L : DateLib) (k : Bytes) (hk : k ∉ [b!"CreationDate", b!"ModDate"]) (t : Text) (hs : ∀ x ∈ t, Scalar x) :
    metaValue L k (.raw (.str (t.flatMap charUtf8))) = .ok (.text t) := by
  have hk' : ¬ (k = b!"CreationDate" ∨ k = b!"ModDate") := by simpa using hk
  unfold metaValue
  dsimp only
  rw [utf8_decodes t hs]
  dsimp only
  rw [if_neg hk']

/-- C87: a string which is not UTF-8 stays as it is, whatever it is called. -/
theorem C87_undecoded (L : DateLib) (k s : Bytes) (h : ∀ t : Text, (∀ x ∈ t, Scalar x) → s ≠ t.flatMap charUtf8) : metaValue L k (.raw (.str s)) = .ok (.raw (.str s)) := by
  unfold metaValue
  dsimp only
  cases e : utf8Decode s with
  | none => rfl
  | some t => exact absurd ((utf8_iff s t).mp e).2 (h t ((utf8_iff s t).mp e).1)

/-- C87 is false for every text in UTF-16: it is not decoded. -/
theorem C87_utf16_counterexample (L : DateLib) (k : Bytes) (s : Bytes) : metaValue L k (.raw (.str ([0xFE, 0xFF] ++ s))) = .ok (.raw (.str ([0xFE, 0xFF] ++ s))) := by
  have : utf8Decode ([0xFE, 0xFF] ++ s) = none := rfl
  unfold metaValue
  dsimp only
  rw [this]

/-- For letters with accents in PDFDocEncoding: not decoded … -/
theorem C87_accent_counterexample (L : DateLib) (k : Bytes) : metaValue L k (.raw (.str [0xE9])) = .ok (.raw (.str [0xE9])) := rfl

/-- … or decoded to other characters. -/
theorem C87_wrong_counterexample (L : DateLib) : metaValue L b!"Title" (.raw (.str [0xC3, 0xA9])) = .ok (.text [0xE9]) ∧ TextString [0xC3, 0xA9] [0xC3, 0xA9] := by
  refine ⟨rfl, TextString.doc [0xC3, 0xA9] ?_⟩
  intro x hx
  simp only [List.mem_cons, List.not_mem_nil, or_false] at hx
  unfold DocChar
  omega

/-- For text written as a hexadecimal string: it stays one, and so do dates. -/
theorem C87_hex_counterexample (L : DateLib) (k d : Bytes) : metaValue L k (.raw (.hex d)) = .ok (.raw (.hex d)) := rfl

/-- For values given by reference: they stay references. -/
theorem C87_reference_counterexample (L : DateLib) (k : Bytes) (num gen : Nat) : metaValue L k (.raw (.ref num gen)) = .ok (.raw (.ref num gen)) := rfl

theorem metaPass_stable (L : DateLib) (d r : InfoDict) (h : metaPass L d = .ok r) : metaPass L r = .ok r := by
  induction d generalizing r with
  | nil => cases h; rfl
  | cons e d ih =>
    obtain ⟨k, v⟩ := e
    unfold metaPass at h
    cases hv : metaValue L k v with
    | error x => rw [hv] at h; cases h
    | ok w =>
      rw [hv] at h
      dsimp only at h
      cases hd : metaPass L d with
      | error x => rw [hd] at h; cases h
      | ok r' =>
        rw [hd] at h
        cases h
        have hw : metaValue L k w = .ok w := by
          cases v with
          | text t => cases hv; rfl
          | date m => cases hv; rfl
          | raw o =>
            cases o with
            | str s =>
              have hv' := hv
              unfold metaValue at hv
              dsimp only at hv
              cases hu : utf8Decode s with
              | none =>
                rw [hu] at hv
                cases hv
                exact hv'
              | some t =>
                rw [hu] at hv
                dsimp only at hv
                split at hv
                · split at hv
                  · cases hv; rfl
                  · split at hv
                    · cases hv; rfl
                    · cases hv
                · cases hv; rfl
            | _ => cases hv; rfl
        unfold metaPass
        rw [hw]
        dsimp only
        rw [ih r' hd]
        rfl

theorem metaPass_total (L : DateLib) (hp : ∀ t e, L.parse t = .error e → e = .valueError ∨ e = .typeError) (d : InfoDict) : ∃ r, metaPass L d = .ok r ∧ r.map (·.1) = d.map (·.1) := by
  induction d with
  | nil => exact ⟨[], rfl, rfl⟩
  | cons e d ih =>
    obtain ⟨k, v⟩ := e
    obtain ⟨r, hr, hk⟩ := ih
    have hv : ∃ w, metaValue L k v = .ok w := by
      unfold metaValue
      split
      · split
        · exact ⟨_, rfl⟩
        · split
          · cases hf : fromPdfDate L _ with
            | ok m => exact ⟨_, rfl⟩
            | error x =>
              dsimp only
              rw [if_pos]
              · exact ⟨_, rfl⟩
              · unfold fromPdfDate at hf
                split at hf
                · injection hf with e; exact Or.inl e.symm
                · split at hf
                  · exact hp _ _ hf
                  · injection hf with e; exact Or.inl e.symm
          · exact ⟨_, rfl⟩
      · exact ⟨_, rfl⟩
    obtain ⟨w, hw⟩ := hv
    refine ⟨(k, w) :: r, ?_, by simp [hk]⟩
    unfold metaPass
    rw [hw]
    dsimp only
    rw [hr]
    rfl

/-- C88: asking for the metadata changes the stored dictionary, but asking again gives the same: `d` is stored before the first time, and the result `r` afterwards. -/
theorem C88_stable (L : DateLib) (num gen : Nat) (before after : Nat → Nat → Res (Option InfoDict)) (r : InfoDict)
    (h : metadata L (.ref num gen) before = .ok (some r)) (ha : after num gen = .ok (some r)) : metadata L (.ref num gen) after = .ok (some r) := by
  unfold metadata at h ⊢
  dsimp only at h ⊢
  rw [ha]
  dsimp only
  cases hb : before num gen with
  | error e => rw [hb] at h; cases h
  | ok o =>
    cases o with
    | none => rw [hb] at h; cases h
    | some d =>
      rw [hb] at h
      dsimp only at h
      cases hd : metaPass L d with
      | error e => rw [hd] at h; cases h
      | ok r' =>
        rw [hd] at h
        cases h
        rw [metaPass_stable L d r hd]
        rfl

/-- C88: no entry of the Info dictionary makes the metadata fail, if the date parser fails only as it says; all keys are there, in their order. -/
theorem C88_total (L : DateLib) (hp : ∀ t e, L.parse t = .error e → e = .valueError ∨ e = .typeError) (num gen : Nat) (located : Nat → Nat → Res (Option InfoDict)) (d : InfoDict)
    (hd : located num gen = .ok (some d)) : ∃ r, metadata L (.ref num gen) located = .ok (some r) ∧ r.map (·.1) = d.map (·.1) := by
  obtain ⟨r, hr, hk⟩ := metaPass_total L hp d
  refine ⟨r, ?_, hk⟩
  unfold metadata
  dsimp only
  rw [hd]
  dsimp only
  rw [hr]
  rfl

example : ∀ t e, sampleLib.parse t = .error e → e = .valueError ∨ e = .typeError := fun _ _ h => nomatch h

end PdfReader
