/-
  Progress, termination and possible exceptions of the parser functions.
-/
import Verif.Model.Parser
import Verif.Lemmas.Basic

namespace PdfReader

/-- Outcome of a parsing function on `inp`: success leaves a suffix of the input shorter by at least
`k`; failure raises an exception satisfying `P`. -/
def Good {α : Type} (P : Exc → Prop) (k : Nat) (inp : Bytes) (x : PRes α) : Prop :=
  match x with
  | .ok (_, r) => r <:+ inp ∧ r.length + k ≤ inp.length
  | .error e => P e

theorem Good.ok {α} {P : Exc → Prop} {k inp} {v : α} {r : Bytes} (h : Good P k inp (.ok (v, r))) :
    r <:+ inp ∧ r.length + k ≤ inp.length := h

theorem Good.err {α} {P : Exc → Prop} {k inp e} (h : Good P k inp (.error e : PRes α)) : P e := h

/-- What the basic functions may raise. -/
def PT (e : Exc) : Prop := e = .parser ∨ e = .typeError

theorem skipWs_suffix (inp : Bytes) : skipWs inp <:+ inp := by
  induction inp with
  | nil => exact List.suffix_refl _
  | cons c r ih =>
    unfold skipWs; split
    · exact ih.trans (List.suffix_cons c r)
    · exact List.suffix_refl _

def GoodS (inp : Bytes) (x : Res Bytes) : Prop :=
  match x with
  | .ok r => r <:+ inp
  | .error e => e = .typeError

theorem GoodS.cons {r : Bytes} {x : Res Bytes} (c : Byte) (h : GoodS r x) : GoodS (c :: r) x := by
  cases x with
  | ok r' => exact List.IsSuffix.trans h (List.suffix_cons c r)
  | error e => exact h

theorem skipSC_good (inp : Bytes) : ∀ b, GoodS inp (skipSC b inp) := by
  induction inp with
  | nil =>
    intro b
    cases b with
    | false => exact List.suffix_refl _
    | true => exact rfl
  | cons c r ih =>
    intro b
    cases b with
    | false =>
      unfold skipSC
      split
      · exact (ih false).cons c
      · split
        · exact (ih true).cons c
        · exact List.suffix_refl _
    | true =>
      unfold skipSC
      split
      · exact (ih false).cons c
      · exact (ih true).cons c

theorem skipSC_ok {inp r : Bytes} (h : skipSC false inp = .ok r) : r <:+ inp := by
  have := skipSC_good inp false; rw [h] at this; exact this

theorem skipSC_err {inp : Bytes} {e : Exc} (h : skipSC false inp = .error e) : e = .typeError := by
  have := skipSC_good inp false; rw [h] at this; exact this

theorem readN_good (n : Nat) (inp : Bytes) : Good PT n inp (readN n inp) := by
  unfold readN; split
  · exact Or.inr rfl
  · refine ⟨List.drop_suffix _ _, ?_⟩
    simp; omega

theorem keyword_good (kw v inp) : Good PT kw.length inp (keyword kw v inp) := by
  unfold keyword
  have h := readN_good kw.length inp
  cases h' : readN kw.length inp with
  | error e => rw [h'] at h; exact h
  | ok p =>
    obtain ⟨t, r⟩ := p
    rw [h'] at h
    simp only
    split
    · exact h
    · exact Or.inl rfl

theorem spanDigits_suffix (inp : Bytes) : (spanDigits inp).2 <:+ inp := by
  induction inp with
  | nil => exact List.suffix_refl _
  | cons c r ih =>
    unfold spanDigits; split
    · exact ih.trans (List.suffix_cons c r)
    · exact List.suffix_refl _

theorem spanDigits_len (inp : Bytes) :
    (spanDigits inp).2.length + (spanDigits inp).1.length = inp.length := by
  induction inp with
  | nil => rfl
  | cons c r ih =>
    unfold spanDigits; split
    · simp only [List.length_cons]; omega
    · simp

theorem readSign_suffix (inp : Bytes) : (readSign inp).2 <:+ inp := by
  unfold readSign; split
  · exact List.suffix_cons _ _
  · exact List.suffix_cons _ _
  · exact List.suffix_refl _

theorem numeric_good (inp : Bytes) : Good PT 1 inp (numeric inp) := by
  unfold numeric
  have hs := readSign_suffix inp
  generalize readSign inp = p at hs
  obtain ⟨neg, r⟩ := p
  simp only at hs ⊢
  have hd := spanDigits_suffix r
  have hl := spanDigits_len r
  generalize spanDigits r = q at hd hl
  obtain ⟨ip, r1⟩ := q
  simp only at hd hl ⊢
  have hsl := hs.length_le
  split
  · rename_i r2
    have hd2 := spanDigits_suffix r2
    generalize spanDigits r2 = q at hd2
    obtain ⟨fp, r3⟩ := q
    simp only at hd2 ⊢
    have hd2l := hd2.length_le
    simp only [List.length_cons] at hl
    split
    · exact Or.inl rfl
    · have key : r3 <:+ inp ∧ r3.length + 1 ≤ inp.length :=
        ⟨(hd2.trans (List.suffix_cons _ _)).trans (hd.trans hs), by omega⟩
      split
      · exact key
      · exact key
  · split
    · exact Or.inl rfl
    · rename_i hne
      have : 0 < ip.length := List.length_pos_iff.mpr hne
      exact ⟨hd.trans hs, by omega⟩

theorem nonNegInt_good (inp : Bytes) : Good PT 1 inp (nonNegInt inp) := by
  unfold nonNegInt
  have h := numeric_good inp
  cases h' : numeric inp with
  | error e => rw [h'] at h; exact h
  | ok p =>
    obtain ⟨v, r⟩ := p
    rw [h'] at h
    cases v <;> simp only <;> first
      | (split
         · exact Or.inl rfl
         · exact h)
      | exact Or.inl rfl

theorem nameLoop_suffix (inp : Bytes) : (nameLoop inp).2 <:+ inp := by
  fun_induction nameLoop inp <;> simp_all
  all_goals first
    | (rename_i ih; exact ih.trans (by exact ⟨[_, _, _], rfl⟩))
    | (rename_i ih; exact ih.trans (List.suffix_cons _ _))
    | skip


theorem nameP_good (b inp) : Good PT 1 inp (nameP b inp) := by
  unfold nameP
  split
  · rename_i r
    simp only
    split
    · exact Or.inl rfl
    · have h := nameLoop_suffix r
      refine ⟨h.trans (List.suffix_cons _ _), ?_⟩
      have := h.length_le
      simp only [List.length_cons]; omega
  · exact Or.inl rfl

theorem Good.cons {α} {P : Exc → Prop} {k k' : Nat} {inp : Bytes} {x : PRes α} (c : Byte)
    (h : Good P k inp x) (hk : k' ≤ k + 1) : Good P k' (c :: inp) x := by
  cases x with
  | error e => exact h
  | ok p =>
    obtain ⟨v, r⟩ := p
    obtain ⟨h1, h2⟩ := h
    exact ⟨h1.trans (List.suffix_cons _ _), by simp only [List.length_cons]; omega⟩

theorem Good.mono {α} {P Q : Exc → Prop} {k k' : Nat} {inp inp' : Bytes} {x : PRes α}
    (h : Good P k inp x) (hp : ∀ e, P e → Q e) (hs : inp <:+ inp')
    (hk : k' + inp.length ≤ k + inp'.length) :
    Good Q k' inp' x := by
  cases x with
  | error e => exact hp _ h
  | ok p =>
    obtain ⟨v, r⟩ := p
    obtain ⟨h1, h2⟩ := h
    exact ⟨h1.trans hs, by omega⟩

theorem hexLoop_good (inp : Bytes) : ∀ b, Good PT 1 inp (hexLoop b inp) := by
  induction inp with
  | nil =>
    intro b
    cases b with
    | false => exact Or.inl rfl
    | true => exact Or.inr rfl
  | cons c r ih =>
    intro b
    cases b with
    | true =>
      unfold hexLoop
      split
      · exact (ih false).cons c (by omega)
      · exact (ih true).cons c (by omega)
    | false =>
      unfold hexLoop
      split
      · exact (ih false).cons c (by omega)
      · split
        · exact (ih true).cons c (by omega)
        · split
          · have h := ih false
            cases h' : hexLoop false r with
            | error e => rw [h'] at h; exact h
            | ok p => rw [h'] at h; exact Good.cons (α := Bytes) (x := .ok (_, p.2)) c h (by omega)
          · split
            · exact ⟨List.suffix_cons _ _, by simp⟩
            · exact Or.inl rfl

theorem hexstring_good (inp : Bytes) : Good PT 1 inp (hexstring inp) := by
  unfold hexstring
  have h := hexLoop_good inp false
  cases h' : hexLoop false inp with
  | error e => rw [h'] at h; exact h
  | ok p => rw [h'] at h; exact h

theorem pre_good {P : Exc → Prop} {k inp bs x} (h : Good P k inp x) : Good P k inp (pre bs x) := by
  cases x with
  | error e => exact h
  | ok p => exact h

theorem strLoop_good (d : Nat) (inp : Bytes) : Good PT 1 inp (strLoop d inp) := by
  fun_induction strLoop d inp
  all_goals first
    | exact Or.inr rfl
    | exact ⟨List.suffix_cons _ _, by simp⟩
    | (rename_i ih; exact ih.cons _ (by omega))
    | (rename_i ih; exact (pre_good ih).cons _ (by omega))
    | (rename_i ih; exact ((pre_good ih).cons _ (Nat.le_refl _)).cons _ (by omega))
    | (rename_i ih; exact (ih.cons _ (Nat.le_refl _)).cons _ (by omega))
    | (rename_i ih; exact ((ih.cons _ (Nat.le_refl _)).cons _ (Nat.le_refl _)).cons _ (by omega))
    | (rename_i ih; exact (((pre_good ih).cons _ (Nat.le_refl _)).cons _ (Nat.le_refl _)).cons _ (by omega))
    | (rename_i ih; exact ((((pre_good ih).cons _ (Nat.le_refl _)).cons _ (Nat.le_refl _)).cons _ (Nat.le_refl _)).cons _ (by omega))

theorem indirectRef_good (inp : Bytes) : Good PT 1 inp (indirectRef inp) := by
  unfold indirectRef
  have h1 := nonNegInt_good inp
  cases e1 : nonNegInt inp with
  | error e => rw [e1] at h1; exact h1
  | ok p1 =>
    obtain ⟨num, r⟩ := p1
    rw [e1] at h1
    obtain ⟨s1, l1⟩ := h1
    simp only
    cases e2 : skipSC false r with
    | error e => exact Or.inr (skipSC_err e2)
    | ok r1 =>
      have s2 := skipSC_ok e2
      simp only
      have h3 := nonNegInt_good r1
      cases e3 : nonNegInt r1 with
      | error e => rw [e3] at h3; exact h3
      | ok p3 =>
        obtain ⟨gen, r2⟩ := p3
        rw [e3] at h3
        obtain ⟨s3, l3⟩ := h3
        simp only
        cases e4 : skipSC false r2 with
        | error e => exact Or.inr (skipSC_err e4)
        | ok r3 =>
          have s4 := skipSC_ok e4
          have key : r3 <:+ inp ∧ r3.length + 2 ≤ inp.length := by
            refine ⟨s4.trans (s3.trans (s2.trans s1)), ?_⟩
            have := s4.length_le; have := s2.length_le; omega
          match r3, key with
          | [], _ => exact Or.inl rfl
          | x :: r4, key =>
            simp only
            split
            · refine ⟨(List.suffix_cons _ _).trans key.1, ?_⟩
              have := key.2; simp only [List.length_cons] at this; omega
            · exact Or.inl rfl

theorem head?_cons {inp : Bytes} {c : Byte} (h : inp.head? = some c) : inp = c :: inp.tail := by
  cases inp with
  | nil => cases h
  | cons a t => cases h; rfl

theorem numericOrRef_good (inp : Bytes) : Good PT 1 inp (numericOrRef inp) := by
  unfold numericOrRef
  split
  · exact numeric_good inp
  · exact indirectRef_good inp

theorem spanRegular_suffix (inp : Bytes) : (spanRegular inp).2 <:+ inp := by
  induction inp with
  | nil => exact List.suffix_refl _
  | cons c r ih =>
    unfold spanRegular; split
    · exact ih.trans (List.suffix_cons c r)
    · exact List.suffix_refl _

theorem tokenP_good (inp : Bytes) : Good PT 1 inp (tokenP inp) := by
  unfold tokenP
  split
  · exact Or.inl rfl
  · rename_i c r
    split
    · exact Or.inl rfl
    · rename_i h
      have hr : isRegular c = true := by
        cases hc : isRegular c <;> simp_all
      have hs := spanRegular_suffix r
      unfold spanRegular
      rw [if_pos hr]
      exact ⟨hs.trans (List.suffix_cons _ _), by have := hs.length_le; simp only [List.length_cons]; omega⟩

theorem splitOn1_suffix (pat inp a b : Bytes) (h : splitOn1 pat inp = some (a, b)) : b <:+ inp := by
  induction inp generalizing a b with
  | nil =>
    unfold splitOn1 at h
    split at h
    · cases h; exact List.suffix_refl _
    · cases h
  | cons c r ih =>
    unfold splitOn1 at h
    split at h
    · cases h; exact List.drop_suffix _ _
    · cases h' : splitOn1 pat r with
      | none => rw [h'] at h; cases h
      | some p =>
        rw [h'] at h
        simp only [Option.map_some, Option.some.injEq, Prod.mk.injEq] at h
        exact h.2 ▸ (ih p.1 p.2 h').trans (List.suffix_cons _ _)

theorem imgData_suffix (inp a b : Bytes) (h : imgData inp = some (a, b)) : b <:+ inp := by
  induction inp generalizing a b with
  | nil => simp [imgData] at h
  | cons x t ih =>
    match t with
    | [] => simp [imgData] at h
    | [_] => simp [imgData] at h
    | y :: z :: r =>
      unfold imgData at h
      split at h
      · cases h; exact ⟨[x, y, z], rfl⟩
      · cases h' : imgData (y :: z :: r) with
        | none => rw [h'] at h; cases h
        | some p =>
          rw [h'] at h
          simp only [Option.map_some, Option.some.injEq, Prod.mk.injEq] at h
          exact h.2 ▸ (ih p.1 p.2 h').trans (List.suffix_cons _ _)

theorem afterStreamKw_suffix (inp : Bytes) : afterStreamKw inp <:+ inp := by
  unfold afterStreamKw
  split
  · exact ⟨[_, _], rfl⟩
  · exact List.suffix_cons _ _
  · exact List.suffix_cons _ _
  · exact List.suffix_refl _

theorem streamBody_good (d l inp) : Good PT 1 inp (streamBody d l inp) := by
  unfold streamBody
  have h1 := readN_good 6 inp
  cases e1 : readN 6 inp with
  | error e => rw [e1] at h1; exact h1
  | ok p1 =>
    obtain ⟨t, r⟩ := p1
    rw [e1] at h1
    obtain ⟨s1, l1⟩ := h1
    simp only
    split
    · exact Or.inl rfl
    · have hk := afterStreamKw_suffix r
      generalize afterStreamKw r = start at hk
      cases e2 : lengthOf l with
      | error e =>
        have : e = .typeError := by
          unfold lengthOf at e2
          split at e2 <;> simp_all
        exact Or.inr this
      | ok n =>
        simp only
        have h3 := readN_good n start
        cases e3 : readN n start with
        | error e => rw [e3] at h3; exact h3
        | ok p3 =>
          obtain ⟨data, r1⟩ := p3
          rw [e3] at h3
          simp only
          have h4 := readN_good 9 (skipWs r1)
          cases e4 : readN 9 (skipWs r1) with
          | error e => rw [e4] at h4; exact h4
          | ok p4 =>
            obtain ⟨t2, r2⟩ := p4
            rw [e4] at h4
            simp only
            have hsuf := hk.trans s1
            have hkl := hk.length_le
            split
            · refine ⟨h4.1.trans ((skipWs_suffix r1).trans (h3.1.trans hsuf)), ?_⟩
              have := h4.2; have := (skipWs_suffix r1).length_le; have := h3.2; omega
            · split
              · exact Or.inl rfl
              · rename_i heq
                have hb := splitOn1_suffix _ _ _ _ heq
                refine ⟨hb.trans hsuf, ?_⟩
                have := hb.length_le; omega

/-- Exceptions an object parse may raise: its own, KeyError (stream without Length), and whatever the
resolution of an indirect Length raises. -/
def PK (cfg : Cfg) (e : Exc) : Prop :=
  PT e ∨ e = .keyError ∨ ∃ f n g, cfg.len = some f ∧ f n g = .error e

theorem dropOk {α : Type} {P : Exc → Prop} {k : Nat} {inp : Bytes} {x : PRes α} {v : α} {r : Bytes}
    (h : Good P k inp x) (e : x = .ok (v, r)) : r <:+ inp ∧ r.length + k ≤ inp.length := by
  rw [e] at h; exact h

theorem dropErr {α : Type} {P : Exc → Prop} {k : Nat} {inp : Bytes} {x : PRes α} {e : Exc}
    (h : Good P k inp x) (he : x = .error e) : P e := by
  rw [he] at h; exact h

theorem streamP_good (cfg d inp) : Good (PK cfg) 1 inp (streamP cfg d inp) := by
  unfold streamP
  have up : ∀ d l, Good (PK cfg) 1 inp (streamBody d l inp) := fun d l =>
    (streamBody_good d l inp).mono (fun e h => Or.inl h) (List.suffix_refl _) (Nat.le_refl _)
  split
  · exact Or.inr (Or.inl rfl)
  · split
    · exact up _ _
    · rename_i f heq
      split
      · rename_i e he
        exact Or.inr (Or.inr ⟨f, _, _, heq, he⟩)
      · exact up _ _
  · exact up _ _


/-- Exceptions of the fuelled functions: `diverges` only when the fuel is below `need`. -/
def PF (cfg : Cfg) (fuel need : Nat) (e : Exc) : Prop := PK cfg e ∨ (e = .diverges ∧ fuel < need)

theorem PF.pt {cfg fuel need e} (h : PT e) : PF cfg fuel need e := Or.inl (Or.inl h)

theorem PF.step {cfg fuel need fuel' need' e} (h : PF cfg fuel need e)
    (hn : fuel < need → fuel' < need') : PF cfg fuel' need' e :=
  h.imp id (fun h => ⟨h.1, hn h.2⟩)

theorem PF.te {cfg fuel need} : PF cfg fuel need .typeError := .inl (.inl (.inr rfl))
theorem PF.pe {cfg fuel need} : PF cfg fuel need .parser := .inl (.inl (.inl rfl))
theorem PF.sc {cfg fuel need inp e} (h : skipSC false inp = .error e) : PF cfg fuel need e :=
  skipSC_err h ▸ PF.te

theorem PF.ofInline {cfg : Cfg} {fuel need e}
    (h : PF { refs := false, kind := .inline } fuel need e) : PF cfg fuel need e := by
  rcases h with (h | h | ⟨f, n, g, hf, _⟩) | h
  · exact .inl (.inl h)
  · exact .inl (.inr (.inl h))
  · cases hf
  · exact .inr h

theorem tokenP_len {inp t r : Bytes} (h : tokenP inp = .ok (t, r)) : t.length + r.length = inp.length := by
  unfold tokenP at h
  split at h
  · cases h
  · split at h
    · cases h
    · simp only [Except.ok.injEq] at h
      rename_i x r' _
      generalize (x :: r') = x at h
      induction x generalizing t r with
      | nil => cases h; rfl
      | cons a x ihx =>
        unfold spanRegular at h
        split at h
        · cases h
          have := ihx (t := (spanRegular x).1) (r := (spanRegular x).2) rfl
          simp only [List.length_cons]; omega
        · cases h; simp

theorem nullFalseTrueToken_good (inp : Bytes) : Good PT 1 inp (nullFalseTrueToken inp) := by
  unfold nullFalseTrueToken
  have h := tokenP_good inp
  split
  · rename_i e; exact dropErr h e
  · rename_i t r e
    have hk := dropOk h e
    split
    · exact hk
    · split
      · exact hk
      · split
        · exact hk
        · exact hk

theorem stringP_good (inp : Bytes) : Good PT 1 inp (stringP inp) := by
  unfold stringP
  have h := strLoop_good 0 inp
  split
  · rename_i e; exact dropErr h e
  · rename_i t r e; exact dropOk h e

theorem nameObj_good (inp : Bytes) : Good PT 1 inp (nameObj inp) := by
  unfold nameObj
  have h := nameP_good true inp
  split
  · rename_i e; exact dropErr h e
  · rename_i t r e; exact dropOk h e

theorem arrayP_good {cfg fuel} {arrF : Bytes → PRes (List Obj)} {r : Bytes}
    (ih : ∀ inp, Good (PF cfg fuel (2 * inp.length + 2)) 1 inp (arrF inp)) :
    Good (PF cfg (fuel + 1) (2 * r.length + 3)) 1 r (arrayP arrF r) := by
  unfold arrayP
  split
  · rename_i e1; exact PF.sc e1
  · rename_i r1 e1
    have s1 := skipSC_ok e1
    have l1 := s1.length_le
    have ha := ih r1
    split
    · rename_i e2
      exact (dropErr ha e2).step (by omega)
    · rename_i xs r2 e2
      have h2 := dropOk ha e2
      exact ⟨h2.1.trans s1, by omega⟩

theorem dictOrHex_good {cfg fuel} {dictF : Bytes → PRes (List (Bytes × Obj))} {r : Bytes}
    (ih : ∀ inp, Good (PF cfg fuel (2 * inp.length + 2)) 1 inp (dictF inp)) :
    Good (PF cfg (fuel + 1) (2 * r.length + 3)) 1 r (dictOrHex cfg dictF r) := by
  unfold dictOrHex
  split
  · exact PF.pe
  · rename_i c1 r1
    split
    · split
      · rename_i e1; exact PF.sc e1
      · rename_i r2 e1
        have s1 := skipSC_ok e1
        have l1 := s1.length_le
        have hd := ih r2
        split
        · rename_i e2
          exact (dropErr hd e2).step (by simp only [List.length_cons]; omega)
        · rename_i d r3 e2
          have h2 := dropOk hd e2
          have s2 : r3 <:+ c1 :: r1 := h2.1.trans (s1.trans (List.suffix_cons _ _))
          split
          · rename_i e3; exact PF.sc e3
          · rename_i r4 e3
            have s3 := skipSC_ok e3
            have l3 := s3.length_le
            split
            · exact (streamP_good cfg d r4).mono (fun e he => Or.inl he) (s3.trans s2)
                (by simp only [List.length_cons]; omega)
            · exact ⟨s3.trans s2, by simp only [List.length_cons]; omega⟩
    · split
      · exact (hexstring_good _).mono (fun e he => PF.pt he) (List.suffix_refl _) (Nat.le_refl _)
      · exact PF.pe

theorem otherP_good {cfg fuel k} {imgF : Bytes → PRes Obj} {inp : Bytes}
    (ih : ∀ inp, Good (PF cfg fuel (2 * inp.length + 3)) 1 inp (imgF inp)) :
    Good (PF cfg (fuel + 1) (2 * inp.length + 1)) 1 inp (otherP k imgF inp) := by
  unfold otherP
  have ht := tokenP_good inp
  split
  · exact PF.pe
  · split
    · rename_i e1; exact PF.pt (dropErr ht e1)
    · rename_i t r1 e1
      exact dropOk ht e1
  · split
    · rename_i e1; exact PF.pt (dropErr ht e1)
    · rename_i t r1 e1
      split
      · rename_i hbi
        have h2 := dropOk ht e1
        have h3 := tokenP_len e1
        have h4 : t.length = 2 := by rw [hbi]; rfl
        exact (ih r1).mono (fun e he => he.step (by omega)) h2.1 (by omega)
      · exact dropOk ht e1

theorem objBody_good (cfg : Cfg) (fuel : Nat) (dictF arrF imgF) (inp : Bytes) (c : Byte) (r : Bytes)
    (s0 : c :: r <:+ inp)
    (ihD : ∀ inp, Good (PF cfg fuel (2 * inp.length + 2)) 1 inp (dictF inp))
    (ihA : ∀ inp, Good (PF cfg fuel (2 * inp.length + 2)) 1 inp (arrF inp))
    (ihI : ∀ inp, Good (PF cfg fuel (2 * inp.length + 3)) 1 inp (imgF inp)) :
    Good (PF cfg (fuel + 1) (2 * inp.length + 1)) 1 inp (objBody cfg dictF arrF imgF c r) := by
  have l0 := s0.length_le
  have ptl : ∀ {α} {x : PRes α} {k}, Good PT (k+1) (c :: r) x →
      Good (PF cfg (fuel+1) (2 * inp.length + 1)) 1 inp x :=
    fun h => h.mono (fun e he => PF.pt he) s0 (by omega)
  have ptr : ∀ {α} {x : PRes α} {k}, Good PT k r x →
      Good (PF cfg (fuel+1) (2 * inp.length + 1)) 1 inp x :=
    fun h => ptl (h.cons c (k' := 1) (by omega))
  have sr : r <:+ inp := (List.suffix_cons c r).trans s0
  have lr : r.length + 1 ≤ inp.length := by simpa using l0
  unfold objBody
  split
  · exact ptl (nullFalseTrueToken_good _)
  split
  · exact (dictOrHex_good ihD).mono (fun e he => he.step (by omega)) sr (by omega)
  split
  · exact (arrayP_good ihA).mono (fun e he => he.step (by omega)) sr (by omega)
  split
  · exact ptr (stringP_good r)
  split
  · exact ptl (keyword_good _ _ _)
  split
  · exact ptl (keyword_good _ _ _)
  split
  · exact ptl (keyword_good _ _ _)
  split
  · exact ptl (numeric_good _)
  split
  · split
    · exact ptl (numericOrRef_good _)
    · exact ptl (numeric_good _)
  split
  · exact ptl (nameObj_good _)
  · exact (otherP_good ihI).mono (fun e he => he.step (by omega)) s0 (by omega)

theorem parser_good (fuel : Nat) :
    (∀ cfg inp, Good (PF cfg fuel (2 * inp.length + 1)) 1 inp (objectP cfg fuel inp)) ∧
    (∀ cfg inp, Good (PF cfg fuel (2 * inp.length + 2)) 1 inp (arrLoop cfg fuel inp)) ∧
    (∀ cfg acc inp, Good (PF cfg fuel (2 * inp.length + 2)) 1 inp (dictLoop cfg fuel acc inp)) ∧
    (∀ cfg acc inp, Good (PF cfg fuel (2 * inp.length + 2)) 1 inp (entLoop fuel acc inp)) ∧
    (∀ cfg inp, Good (PF cfg fuel (2 * inp.length + 3)) 1 inp (imageP fuel inp)) := by
  induction fuel with
  | zero =>
    refine ⟨?_, ?_, ?_, ?_, ?_⟩ <;> intros <;>
      simp only [objectP, arrLoop, dictLoop, entLoop, imageP] <;>
      exact Or.inr ⟨rfl, by omega⟩
  | succ fuel ih =>
    obtain ⟨ihO, ihA, ihD, ihE, ihI⟩ := ih
    refine ⟨?_, ?_, ?_, ?_, ?_⟩
    · intro cfg inp
      unfold objectP
      cases e0 : skipSC false inp with
      | error e => exact PF.sc e0
      | ok r0 =>
        have s0 := skipSC_ok e0
        have l0 := s0.length_le
        cases r0 with
        | nil => exact PF.te
        | cons c r =>
          exact objBody_good cfg fuel _ _ _ inp c r s0 (fun i => ihD cfg [] i) (fun i => ihA cfg i) (fun i => ihI cfg i)
    · intro cfg inp
      unfold arrLoop
      split
      · rename_i hh
        have := head?_cons hh
        refine ⟨List.tail_suffix _, ?_⟩
        rw [this]; simp
      · have ho := ihO cfg inp
        split
        · rename_i e1
          exact (dropErr ho e1).step (by omega)
        · rename_i o r e1
          have h1 := dropOk ho e1
          split
          · rename_i e2; exact PF.sc e2
          · rename_i r1 e2
            have s2 := skipSC_ok e2
            have l2 := s2.length_le
            have ha := ihA cfg r1
            split
            · rename_i e3
              exact (dropErr ha e3).step (by omega)
            · rename_i xs r2 e3
              have h3 := dropOk ha e3
              exact ⟨h3.1.trans (s2.trans h1.1), by omega⟩
    · intro cfg acc inp
      unfold dictLoop
      split
      · rename_i hh
        have := head?_cons hh
        split
        · refine ⟨(List.tail_suffix _).trans (List.tail_suffix _), ?_⟩
          rw [this]; simp
        · exact PF.pe
      · have hn := nameP_good true inp
        split
        · rename_i e1; exact PF.pt (dropErr hn e1)
        · rename_i k r e1
          have h1 := dropOk hn e1
          split
          · rename_i e2; exact PF.sc e2
          · rename_i r1 e2
            have s2 := skipSC_ok e2
            have l2 := s2.length_le
            have ho := ihO cfg r1
            split
            · rename_i e3
              exact (dropErr ho e3).step (by omega)
            · rename_i v r2 e3
              have h3 := dropOk ho e3
              split
              · rename_i e4; exact PF.sc e4
              · rename_i r3 e4
                have s4 := skipSC_ok e4
                have l4 := s4.length_le
                exact (ihD cfg (dictSet acc k v) r3).mono (fun e he => he.step (by omega))
                  (s4.trans (h3.1.trans (s2.trans h1.1))) (by omega)
    · intro cfg acc inp
      unfold entLoop
      split
      · rename_i hh
        have := head?_cons hh
        split
        · refine ⟨(List.tail_suffix _).trans (List.tail_suffix _), ?_⟩
          rw [this]; simp
        · exact PF.pe
      · have hn := nameP_good true inp
        split
        · rename_i e1; exact PF.pt (dropErr hn e1)
        · rename_i k r e1
          have h1 := dropOk hn e1
          split
          · rename_i e2; exact PF.sc e2
          · rename_i r1 e2
            have s2 := skipSC_ok e2
            have l2 := s2.length_le
            have ho := ihO { refs := false, kind := .inline } r1
            split
            · rename_i e3
              exact ((dropErr ho e3).step (by omega)).ofInline
            · exact PF.pe
            · rename_i v r2 _ e3
              have h3 := dropOk ho e3
              split
              · rename_i e4; exact PF.sc e4
              · rename_i r3 e4
                have s4 := skipSC_ok e4
                have l4 := s4.length_le
                exact (ihE cfg (dictSet acc k v) r3).mono (fun e he => he.step (by omega))
                  (s4.trans (h3.1.trans (s2.trans h1.1))) (by omega)
    · intro cfg inp
      unfold imageP
      split
      · rename_i e1; exact PF.sc e1
      · rename_i r0 e1
        have s1 := skipSC_ok e1
        have l1 := s1.length_le
        have he := ihE cfg [] r0
        split
        · rename_i e2
          exact (dropErr he e2).step (by omega)
        · rename_i d r e2
          have h2 := dropOk he e2
          split
          · rename_i c r1
            split
            · split
              · exact PF.te
              · rename_i data r2 e3
                have s3 := imgData_suffix _ _ _ e3
                have l3 := s3.length_le
                have := h2.2
                simp only [List.length_cons] at this
                exact ⟨s3.trans ((List.suffix_cons _ _).trans (h2.1.trans s1)), by omega⟩
            · exact PF.pe
          · exact PF.pe


/-- `y` is `x` computed with more fuel. -/
def ExtEq {α : Type} (x y : Res α) : Prop := x = .error .diverges ∨ y = x

theorem ExtEq.refl {α : Type} (x : Res α) : ExtEq x x := Or.inr rfl

theorem ExtEq.div {α : Type} (y : Res α) : ExtEq (.error .diverges) y := Or.inl rfl

theorem dictOrHex_ext {cfg} {D D' : Bytes → PRes (List (Bytes × Obj))} (h : ∀ i, ExtEq (D i) (D' i))
    (r : Bytes) : ExtEq (dictOrHex cfg D r) (dictOrHex cfg D' r) := by
  unfold dictOrHex
  split
  · exact .refl _
  split
  · split
    · exact .refl _
    · rename_i r2 _
      rcases h r2 with h | h
      · rw [h]; exact .div _
      · rw [h]; exact .refl _
  · exact .refl _

theorem arrayP_ext {A A' : Bytes → PRes (List Obj)} (h : ∀ i, ExtEq (A i) (A' i))
    (r : Bytes) : ExtEq (arrayP A r) (arrayP A' r) := by
  unfold arrayP
  split
  · exact .refl _
  · rename_i r2 _
    rcases h r2 with h | h
    · rw [h]; exact .div _
    · rw [h]; exact .refl _

theorem otherP_ext {k} {A A' : Bytes → PRes Obj} (h : ∀ i, ExtEq (A i) (A' i))
    (r : Bytes) : ExtEq (otherP k A r) (otherP k A' r) := by
  unfold otherP
  split
  · exact .refl _
  · exact .refl _
  · split
    · exact .refl _
    · rename_i r2 _
      split
      · exact h r2
      · exact .refl _

theorem ExtEq.ite {α : Type} {c : Prop} [Decidable c] {a a' b b' : Res α} (h1 : ExtEq a a')
    (h2 : ExtEq b b') : ExtEq (if c then a else b) (if c then a' else b') := by
  by_cases h : c
  · rw [if_pos h, if_pos h]; exact h1
  · rw [if_neg h, if_neg h]; exact h2

theorem objBody_ext {cfg D D' A A' I I'} (hD : ∀ i, ExtEq (D i) (D' i)) (hA : ∀ i, ExtEq (A i) (A' i))
    (hI : ∀ i, ExtEq (I i) (I' i)) (c r) :
    ExtEq (objBody cfg D A I c r) (objBody cfg D' A' I' c r) := by
  unfold objBody
  refine .ite (.refl _) (.ite (dictOrHex_ext hD r) (.ite (arrayP_ext hA r) (.ite (.refl _) (.ite (.refl _)
    (.ite (.refl _) (.ite (.refl _) (.ite (.refl _) (.ite (.refl _) (.ite (.refl _)
    (otherP_ext hI _))))))))))

/-- The results of the parsing functions do not depend on the amount of fuel, unless it runs out. -/
theorem fuel_mono (fuel : Nat) :
    (∀ cfg inp, ExtEq (objectP cfg fuel inp) (objectP cfg (fuel+1) inp)) ∧
    (∀ cfg inp, ExtEq (arrLoop cfg fuel inp) (arrLoop cfg (fuel+1) inp)) ∧
    (∀ cfg acc inp, ExtEq (dictLoop cfg fuel acc inp) (dictLoop cfg (fuel+1) acc inp)) ∧
    (∀ acc inp, ExtEq (entLoop fuel acc inp) (entLoop (fuel+1) acc inp)) ∧
    (∀ inp, ExtEq (imageP fuel inp) (imageP (fuel+1) inp)) := by
  induction fuel with
  | zero =>
    refine ⟨?_, ?_, ?_, ?_, ?_⟩ <;> intros <;> exact Or.inl rfl
  | succ fuel ih =>
    obtain ⟨ihO, ihA, ihD, ihE, ihI⟩ := ih
    refine ⟨?_, ?_, ?_, ?_, ?_⟩
    · intro cfg inp
      rw [objectP, objectP]
      split
      · exact .refl _
      · exact .refl _
      · exact objBody_ext (ihD cfg []) (ihA cfg) ihI _ _
    · intro cfg inp
      rw [arrLoop, arrLoop]
      split
      · exact .refl _
      · rcases ihO cfg inp with h | h
        · rw [h]; exact .div _
        · rw [h]
          split
          · exact .refl _
          · split
            · exact .refl _
            · rename_i r1 _
              rcases ihA cfg r1 with h | h
              · rw [h]; exact .div _
              · rw [h]; exact .refl _
    · intro cfg acc inp
      rw [dictLoop, dictLoop]
      split
      · exact .refl _
      · split
        · exact .refl _
        · split
          · exact .refl _
          · rename_i r1 _
            rcases ihO cfg r1 with h | h
            · rw [h]; exact .div _
            · rw [h]
              split
              · exact .refl _
              · split
                · exact .refl _
                · exact ihD _ _ _
    · intro acc inp
      rw [entLoop, entLoop]
      split
      · exact .refl _
      · split
        · exact .refl _
        · split
          · exact .refl _
          · rename_i r1 _
            rcases ihO { refs := false, kind := .inline } r1 with h | h
            · rw [h]; exact .div _
            · rw [h]
              split
              · exact .refl _
              · exact .refl _
              · split
                · exact .refl _
                · exact ihE _ _
    · intro inp
      rw [imageP, imageP]
      split
      · exact .refl _
      · rename_i r0 _
        rcases ihE [] r0 with h | h
        · rw [h]; exact .div _
        · rw [h]; exact .refl _

theorem objectP_more {cfg : Cfg} {f g : Nat} {inp : Bytes} (hle : f ≤ g)
    (h : objectP cfg f inp ≠ .error .diverges) : objectP cfg g inp = objectP cfg f inp := by
  induction hle with
  | refl => rfl
  | step _ ih =>
    rcases (fuel_mono _).1 cfg inp with h' | h'
    · rw [ih] at h'; exact absurd h' h
    · rw [h', ih]

/-- A configuration whose Length resolution never runs out of (its own) fuel. -/
def Cfg.NoDiv (cfg : Cfg) : Prop := ∀ f n g, cfg.len = some f → f n g ≠ .error .diverges

theorem objectP_noDiv {cfg : Cfg} (hc : cfg.NoDiv) {fuel : Nat} {inp : Bytes}
    (hf : 2 * inp.length + 1 ≤ fuel) : objectP cfg fuel inp ≠ .error .diverges := by
  intro h
  rcases dropErr ((parser_good fuel).1 cfg inp) h with (h | h | ⟨f, n, g, h1, h2⟩) | h
  · rcases h with h | h <;> cases h
  · cases h
  · exact hc f n g h1 h2
  · omega

/-- With any fuel beyond `2·length + 1` the result is `parseObject`. -/
theorem objectP_eq_parse {cfg : Cfg} (hc : cfg.NoDiv) {fuel : Nat} {inp : Bytes}
    (hf : 2 * inp.length + 1 ≤ fuel) : objectP cfg fuel inp = parseObject cfg inp := by
  have h1 := objectP_noDiv hc (inp := inp) (Nat.le_refl _)
  unfold parseObject
  rw [objectP_more hf h1, objectP_more (g := fuelFor inp) (by unfold fuelFor; omega) h1]

/-- A successful parse with some fuel is the result of `parseObject`. -/
theorem parseObject_of_fuel {cfg : Cfg} (hc : cfg.NoDiv) {inp : Bytes} {x : Obj × Bytes} (f : Nat)
    (h : objectP cfg f inp = .ok x) : parseObject cfg inp = .ok x := by
  have hne : objectP cfg f inp ≠ .error .diverges := by rw [h]; simp
  rw [← objectP_eq_parse hc (fuel := max f (2 * inp.length + 1)) (Nat.le_max_right _ _),
    objectP_more (Nat.le_max_left _ _) hne, h]

theorem fileCfg_noDiv : fileCfg.NoDiv := by intro f n g h; cases h
theorem contentCfg_noDiv : contentCfg.NoDiv := by intro f n g h; cases h

end PdfReader
