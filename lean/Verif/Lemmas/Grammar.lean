/-
  The parser functions on texts described by the grammar of Verif/Spec/Grammar.lean: lexical level.
-/
import Verif.Spec.Grammar
import Verif.Lemmas.Parser

namespace PdfReader
open Spec

theorem ws_iff : ∀ c : Byte, WS c ↔ isWs c = true :=
  forall_u8 (fun c => (c ∈ ([0, 9, 10, 12, 13, 32] : Bytes)) ↔ isWs c = true) (by decide +kernel)

theorem delim_iff : ∀ c : Byte, Delim c ↔ isDelim c = true :=
  forall_u8 (fun c => (c ∈ (b!"()<>[]{}/%")) ↔ isDelim c = true) (by decide +kernel)

theorem regular_iff (c : Byte) : Regular c ↔ isRegular c = true := by
  unfold Regular isRegular
  rw [ws_iff, delim_iff]
  cases isWs c <;> cases isDelim c <;> simp

theorem digit_iff : ∀ c : Byte, Digit c ↔ isDigit c = true :=
  forall_u8 (fun c => (c ∈ (b!"0123456789")) ↔ isDigit c = true) (by decide +kernel)

theorem eol_iff (c : Byte) : Eol c ↔ isEol c = true := by
  unfold Eol isEol; simp [or_comm]

theorem digit_regular : ∀ c : Byte, isDigit c = true → isRegular c = true :=
  forall_u8 (fun c => isDigit c = true → isRegular c = true) (by decide +kernel)

theorem digit_not_ws : ∀ c : Byte, isDigit c = true → isWs c = false ∧ c ≠ 37 ∧ c ≠ 46 ∧ c ≠ 43 ∧ c ≠ 45 :=
  forall_u8 (fun c => isDigit c = true → isWs c = false ∧ c ≠ 37 ∧ c ≠ 46 ∧ c ≠ 43 ∧ c ≠ 45) (by decide +kernel)

theorem hexDig_val {v : Nat} {c : Byte} (h : HexDig v c) : hexVal? c = some v := by
  have hv : v < 16 := by
    rcases h with h | h <;> exact (List.getElem?_eq_some_iff.mp h).1
  have key : ∀ i : Fin 16, (b!"0123456789ABCDEF")[i.val]? = some (hexDigitUp i.val) ∧
      (b!"0123456789abcdef")[i.val]? = some (hexDigitLo i.val) := by decide +kernel
  rcases h with h | h
  · have := (key ⟨v, hv⟩).1
    rw [h] at this
    cases this
    exact hexVal_up ⟨v, hv⟩
  · have := (key ⟨v, hv⟩).2
    rw [h] at this
    cases this
    exact hexVal_lo ⟨v, hv⟩

theorem octDig_val {v : Nat} {c : Byte} (h : OctDigit v c) : v < 8 ∧ c.toNat = 48 + v ∧ isOct c = true := by
  have hv : v < 8 := (List.getElem?_eq_some_iff.mp h).1
  have key : ∀ i : Fin 8, (b!"01234567")[i.val]? = some (UInt8.ofNat (48 + i.val)) ∧
      (UInt8.ofNat (48 + i.val)).toNat = 48 + i.val ∧ isOct (UInt8.ofNat (48 + i.val)) = true := by
    decide +kernel
  have hk := key ⟨v, hv⟩
  unfold OctDigit at h
  rw [h] at hk
  have h1 := hk.1
  simp only [Option.some.injEq] at h1
  rw [h1]
  exact ⟨hv, hk.2⟩

theorem isOct_octDig : ∀ c : Byte, isOct c = true → ∃ v, OctDigit v c := by
  have : ∀ c : Byte, isOct c = true → ∃ v : Fin 8, (b!"01234567")[v.val]? = some c :=
    forall_u8 (fun c => isOct c = true → ∃ v : Fin 8, (b!"01234567")[v.val]? = some c) (by decide +kernel)
  intro c h
  obtain ⟨v, hv⟩ := this c h
  exact ⟨v.val, hv⟩

/-- Boolean form of `NotStart`. -/
theorem notStart_cons {P : Byte → Prop} {c : Byte} {t : Bytes} (h : NotStart P (c :: t)) : ¬ P c := h c t rfl

theorem notStart_append {P : Byte → Prop} {a b : Bytes} (ha : NotStart P a) (hb : NotStart P b) :
    NotStart P (a ++ b) := by
  cases a with
  | nil => exact hb
  | cons c t => intro c' t' h; cases h; exact ha c t rfl

theorem notStart_left {P : Byte → Prop} {a b : Bytes} (h : NotStart P (a ++ b)) : NotStart P a := by
  cases a with
  | nil => intro c t h; cases h
  | cons c t => intro c' t' e; cases e; exact h c _ rfl

theorem notStart_mk {P : Byte → Prop} {c : Byte} {t : Bytes} (h : ¬ P c) : NotStart P (c :: t) := by
  intro c' t' e; cases e; exact h

theorem notStart_nil {P : Byte → Prop} : NotStart P [] := by intro c t e; cases e

theorem stop_digit {x : Bytes} (h : Stop x) : NotStart Digit x := by
  intro c t e hd
  exact h c t e ((regular_iff c).mpr (digit_regular c ((digit_iff c).mp hd)))

theorem skipSC_comment (body : Bytes) (e : Byte) (x : Bytes) (hb : ∀ c ∈ body, ¬ Eol c) (he : Eol e) :
    skipSC true (body ++ e :: x) = skipSC false x := by
  induction body with
  | nil => simp only [List.nil_append, skipSC, (eol_iff e).mp he, if_true]
  | cons c b ih =>
    have : isEol c = false := by
      have := hb c (by simp)
      rw [eol_iff] at this; simpa using this
    simp only [List.cons_append, skipSC, this]
    exact ih (fun c hc => hb c (by simp [hc]))

theorem skipSC_nonsep {r : Bytes} (h : NotStart SepChar r) : skipSC false r = .ok r := by
  cases r with
  | nil => rfl
  | cons c t =>
    have := notStart_cons h
    unfold SepChar at this
    rw [ws_iff] at this
    have h1 : isWs c = false := by
      cases hc : isWs c <;> simp_all
    have h2 : c ≠ 37 := fun h => this (Or.inr h)
    simp [skipSC, h1, h2]

theorem skipSC_sep_append {s r : Bytes} (hs : Sep s) : skipSC false (s ++ r) = skipSC false r := by
  induction hs with
  | nil => rfl
  | ws c s hc _ ih => simp only [List.cons_append, skipSC, (ws_iff c).mp hc, if_true]; exact ih
  | comment body e s hb he _ ih =>
    have h37 : isWs 37 = false := rfl
    rw [List.cons_append, skipSC, h37]
    simp only [Bool.false_eq_true, if_false, beq_self_eq_true, if_true, List.append_assoc, List.cons_append]
    rw [skipSC_comment body e (s ++ r) hb he]
    exact ih

theorem skipSC_sep {s r : Bytes} (hs : Sep s) (hr : NotStart SepChar r) : skipSC false (s ++ r) = .ok r := by
  rw [skipSC_sep_append hs, skipSC_nonsep hr]

theorem sep_append {a b : Bytes} (ha : Sep a) (hb : Sep b) : Sep (a ++ b) := by
  induction ha with
  | nil => exact hb
  | ws c s hc _ ih => exact .ws c _ hc ih
  | comment body e s h1 h2 _ ih =>
    rw [List.cons_append, List.append_assoc, List.cons_append]
    exact .comment body e _ h1 h2 ih

theorem sep_start {s : Bytes} (h : Sep s) (hne : s ≠ []) : ∃ c t, s = c :: t ∧ SepChar c := by
  cases h with
  | nil => exact absurd rfl hne
  | ws c s hc _ => exact ⟨c, s, rfl, Or.inl hc⟩
  | comment body e s _ _ _ => exact ⟨37, _, rfl, Or.inr rfl⟩

theorem sepChar_not_regular {c : Byte} (h : SepChar c) : ¬ Regular c := by
  intro hr
  rcases h with h | h
  · exact hr.1 h
  · subst h; exact hr.2 ((delim_iff _).mpr rfl)

theorem stop_sep {s x : Bytes} (hs : Sep s) (hne : s ≠ []) : Stop (s ++ x) := by
  obtain ⟨c, t, rfl, hc⟩ := sep_start hs hne
  exact notStart_mk (sepChar_not_regular hc)

/-! Numbers -/

theorem spanDigits_append {ds x : Bytes} (hd : ∀ c ∈ ds, Digit c) (hx : NotStart Digit x) :
    spanDigits (ds ++ x) = (ds, x) := by
  induction ds with
  | nil =>
    cases x with
    | nil => rfl
    | cons c t =>
      have := notStart_cons hx
      rw [digit_iff] at this
      simp [spanDigits, this]
  | cons c ds ih =>
    have hc := (digit_iff c).mp (hd c (by simp))
    simp [spanDigits, hc, ih (fun c h => hd c (by simp [h]))]

theorem foldl_dec (ds : Bytes) (a : Nat) :
    ds.foldl (fun a c => 10 * a + (c.toNat - 48)) a = a * 10 ^ ds.length + decVal ds := by
  induction ds generalizing a with
  | nil => simp [decVal]
  | cons c ds ih =>
    rw [List.foldl_cons, ih]
    simp only [decVal, List.length_cons, Nat.pow_succ]
    rw [Nat.add_mul, ← Nat.add_assoc]
    congr 2
    rw [Nat.mul_comm 10 a, Nat.mul_assoc, Nat.mul_comm 10]

theorem natOfDigits_eq (ds : Bytes) : natOfDigits ds = decVal ds := by
  unfold natOfDigits; rw [foldl_dec]; simp

theorem digits_head {ds : Bytes} (h : Digits ds) : ∃ c t, ds = c :: t ∧ isDigit c = true := by
  obtain ⟨hne, hd⟩ := h
  cases ds with
  | nil => exact absurd rfl hne
  | cons c t => exact ⟨c, t, rfl, (digit_iff c).mp (hd c (by simp))⟩

theorem readSign_text {neg : Bool} {sg x : Bytes} (h : SignText neg sg)
    (hx : NotStart (fun c => c = 43 ∨ c = 45) x) : readSign (sg ++ x) = (neg, x) := by
  rcases h with ⟨rfl, h | h⟩ | ⟨rfl, h⟩
  · subst h
    simp only [List.nil_append]
    unfold readSign
    split
    · rename_i r; exact absurd (Or.inl rfl) (notStart_cons hx)
    · rename_i r; exact absurd (Or.inr rfl) (notStart_cons hx)
    · rfl
  · subst h; rfl
  · subst h; rfl

theorem numeric_of_span {neg : Bool} {inp r ip r1 : Bytes} (hs : readSign inp = (neg, r))
    (hd : spanDigits r = (ip, r1)) (h46 : NotStart (· = 46) r1) (hne : ip ≠ []) :
    numeric inp = .ok (.int (if neg then -(decVal ip : Int) else decVal ip), r1) := by
  unfold numeric
  rw [hs]
  simp only
  rw [hd]
  simp only
  split
  · rename_i r2; exact absurd rfl (h46 46 r2 rfl)
  · rw [if_neg hne, natOfDigits_eq]

theorem notSign_of_digits {ds x : Bytes} (h : Digits ds) :
    NotStart (fun c => c = 43 ∨ c = 45) (ds ++ x) := by
  obtain ⟨c, t, rfl, hc⟩ := digits_head h
  apply notStart_mk
  have := digit_not_ws c hc
  rintro (h | h)
  · exact this.2.2.2.1 h
  · exact this.2.2.2.2 h

theorem stop_ne {x : Bytes} {b : Byte} (h : Stop x) (hb : isRegular b = true) : NotStart (· = b) x := by
  intro c t e hc
  subst hc
  exact h c t e ((regular_iff c).mpr hb)

/-- Integer texts, followed by anything but a digit or a point. -/
theorem numeric_int {n : Int} {t x : Bytes} (h : IntText n t) (hx : NotStart Digit x)
    (h46 : NotStart (· = 46) x) : numeric (t ++ x) = .ok (.int n, x) := by
  cases h with
  | mk neg sg ds hsg hds =>
    rw [List.append_assoc]
    exact numeric_of_span (readSign_text hsg (notSign_of_digits hds)) (spanDigits_append hds.2 hx) h46 hds.1

theorem nonNegInt_digits {ds x : Bytes} (h : Digits ds) (hx : NotStart Digit x)
    (h46 : NotStart (· = 46) x) : nonNegInt (ds ++ x) = .ok (decVal ds, x) := by
  have := numeric_int (x := x) (IntText.mk false [] ds (Or.inl ⟨rfl, Or.inl rfl⟩) h) hx h46
  simp only [List.nil_append] at this
  unfold nonNegInt
  rw [this]
  simp

theorem decVal_append (a b : Bytes) : decVal (a ++ b) = decVal a * 10 ^ b.length + decVal b := by
  rw [← natOfDigits_eq, natOfDigits, List.foldl_append, foldl_dec, foldl_dec]
  simp

theorem negReal_small (n c : Nat) (e : Int) (h : c < 10 ^ 28) : negReal n c e = .real (-(c : Int)) e := by
  unfold negReal; rw [if_pos h]

theorem numeric_real_aux {neg : Bool} {sg ip fp x : Bytes} (hsg : SignText neg sg) (hip : ∀ c ∈ ip, Digit c)
    (hfp : ∀ c ∈ fp, Digit c) (hne : ¬ (ip = [] ∧ fp = [])) (hx : NotStart Digit x) :
    numeric (sg ++ (ip ++ 46 :: (fp ++ x))) =
      .ok (let ip' := if ip = [] then [48] else ip
           let fp' := if fp = [] then [48] else fp
           if neg then negReal (ip'.length + fp'.length) (decVal (ip' ++ fp')) (-(fp'.length : Int))
           else .real (decVal (ip' ++ fp')) (-(fp'.length : Int)), x) := by
  have h46 : NotStart Digit (46 :: (fp ++ x)) := notStart_mk (by rw [digit_iff]; decide)
  have hns : NotStart (fun c => c = 43 ∨ c = 45) (ip ++ 46 :: (fp ++ x)) := by
    cases ip with
    | nil => exact notStart_mk (by decide)
    | cons c t =>
      have := digit_not_ws c ((digit_iff c).mp (hip c (by simp)))
      exact notStart_mk (by
        rintro (h | h)
        · exact this.2.2.2.1 h
        · exact this.2.2.2.2 h)
  unfold numeric
  rw [readSign_text hsg hns]
  simp only
  rw [spanDigits_append hip h46]
  simp only
  rw [spanDigits_append hfp hx]
  simp only
  rw [if_neg hne, natOfDigits_eq]
  cases neg <;> simp

theorem numeric_real {c e : Int} {t x : Bytes} (h : RealText c e t) (hc : -(10 ^ 28 : Int) < c)
    (hx : NotStart Digit x) : numeric (t ++ x) = .ok (.real c e, x) := by
  cases h with
  | frac neg sg ip fp hsg hip hfp =>
    have hlen : (sg ++ (ip ++ 46 :: fp)) ++ x = sg ++ (ip ++ 46 :: (fp ++ x)) := by simp
    rw [hlen, numeric_real_aux hsg hip hfp.2 (fun h => hfp.1 h.2) hx]
    simp only [if_neg hfp.1]
    have hv : decVal ((if ip = [] then [48] else ip) ++ fp) = decVal (ip ++ fp) := by
      split
      · rename_i h; subst h; simp [decVal]
      · rfl
    rw [hv]
    cases neg with
    | false => simp
    | true =>
      simp only [if_true]
      rw [negReal_small]
      · simp
      · simp only [if_true] at hc; omega
  | nofrac neg sg ip hsg hip =>
    have hlen : (sg ++ (ip ++ [46])) ++ x = sg ++ (ip ++ 46 :: ([] ++ x)) := by simp
    rw [hlen, numeric_real_aux hsg hip.2 (by simp) (fun h => hip.1 h.1) hx]
    simp only [if_neg hip.1, if_true]
    have hv : decVal (ip ++ [48]) = 10 * decVal ip := by
      rw [decVal_append]; simp [decVal]; omega
    rw [hv]
    cases neg with
    | false => simp
    | true =>
      simp only [if_true]
      rw [negReal_small]
      · simp
      · simp only [if_true] at hc; omega

/-! Names -/

theorem hexDig_char {v : Nat} {c : Byte} (h : HexDig v c) : c ≠ 35 := by
  intro hc; subst hc
  have := hexDig_val h
  exact absurd this (by simp [hexVal?])

theorem nameLoop_plain {c : Byte} {r : Bytes} (hc : isRegular c = true) (hne : c ≠ 35) :
    nameLoop (c :: r) = (c :: (nameLoop r).1, (nameLoop r).2) := by
  rw [nameLoop.eq_def]
  split
  · rename_i h; cases h
  · rename_i h; cases h; exact absurd rfl hne
  · rename_i h; cases h; simp [hc]

theorem nameLoop_stop {x : Bytes} (hx : Stop x) : nameLoop x = ([], x) := by
  rw [nameLoop.eq_def]
  split
  · rfl
  · rename_i h; exact absurd ((regular_iff 35).mpr rfl) (hx _ _ rfl)
  · rename_i c r _
    have : isRegular c = false := by
      have := hx c r rfl
      rw [regular_iff] at this; simpa using this
    simp [this]

theorem nameLoop_text {n t x : Bytes} (h : NameText n t) (hx : Stop x) : nameLoop (t ++ x) = (n, x) := by
  induction h with
  | nil => exact nameLoop_stop hx
  | plain c n t hc hne _ ih =>
    rw [List.cons_append, nameLoop_plain ((regular_iff c).mp hc) hne, ih]
  | esc c a b n t ha hb _ ih =>
    simp only [List.cons_append]
    rw [nameLoop]
    simp only [hexDig_val ha, hexDig_val hb, ih]
    congr 2
    apply u8_ext
    have := c.toNat_lt
    simp
    omega

theorem nameP_text {n t x : Bytes} (h : NameText n t) (hx : Stop x) : nameP true (47 :: (t ++ x)) = .ok (n, x) := by
  unfold nameP
  simp [nameLoop_text h hx]

/-! Hexadecimal strings -/

theorem hexUp_val {v : Nat} {u c : Byte} (hu : (b!"0123456789ABCDEF")[v]? = some u) (hc : HexDig v c) :
    upperHex c = u ∧ isHex c = true ∧ isWs c = false ∧ c ≠ 37 := by
  have hv : v < 16 := (List.getElem?_eq_some_iff.mp hu).1
  have key : ∀ i : Fin 16,
      ((b!"0123456789ABCDEF")[i.val]? = some (hexDigitUp i.val) ∧
      (b!"0123456789abcdef")[i.val]? = some (hexDigitLo i.val)) ∧
      (upperHex (hexDigitUp i.val) = hexDigitUp i.val ∧ isHex (hexDigitUp i.val) = true ∧
        isWs (hexDigitUp i.val) = false ∧ hexDigitUp i.val ≠ 37) ∧
      (upperHex (hexDigitLo i.val) = hexDigitUp i.val ∧ isHex (hexDigitLo i.val) = true ∧
        isWs (hexDigitLo i.val) = false ∧ hexDigitLo i.val ≠ 37) := by decide +kernel
  obtain ⟨⟨h1, h2⟩, h3, h4⟩ := key ⟨v, hv⟩
  rw [h1] at hu
  cases hu
  rcases hc with hc | hc
  · rw [h1] at hc; cases hc; exact h3
  · rw [h2] at hc; cases hc; exact h4

theorem hexLoop_text {d t x : Bytes} (h : HexText d t) : hexLoop false (t ++ 62 :: x) = .ok (d, x) := by
  induction h with
  | nil =>
    have h1 : isWs 62 = false := rfl
    have h2 : isHex 62 = false := rfl
    simp [hexLoop, h1, h2]
  | ws c d t hc _ ih =>
    simp only [List.cons_append, hexLoop, (ws_iff c).mp hc, if_true]; exact ih
  | digit v u c d t hu hc _ ih =>
    obtain ⟨h1, h2, h3, h4⟩ := hexUp_val hu hc
    simp only [List.cons_append, hexLoop, h3, h2, beq_iff_eq, h4, if_false, if_true, ih, h1,
      Bool.false_eq_true]

theorem hexstring_text {d t x : Bytes} (h : HexText d t) :
    hexstring (t ++ 62 :: x) = .ok (.hex (padHex d), x) := by
  unfold hexstring
  rw [hexLoop_text h]
  simp only [padHex]
  congr 3
  by_cases hl : d.length % 2 = 0
  · simp [hl]
  · have : d.length % 2 = 1 := by omega
    simp [this]

/-! Literal strings -/

theorem strLoop_other (d : Nat) (c : Byte) (x : Bytes) (h1 : c ≠ 40) (h2 : c ≠ 41) (h3 : c ≠ 92) :
    strLoop d (c :: x) = pre [c] (strLoop d x) := by
  rw [strLoop.eq_def]
  split
  · rename_i h; cases h
  · rename_i h; cases h; exact absurd rfl h3
  · rename_i h; cases h; simp [h1, h2]

theorem strLoop_open (d : Nat) (x : Bytes) : strLoop d (40 :: x) = pre [40] (strLoop (d + 1) x) := by
  rw [strLoop.eq_def]; rfl

theorem strLoop_close0 (x : Bytes) : strLoop 0 (41 :: x) = .ok ([], x) := by
  rw [strLoop.eq_def]; rfl

theorem strLoop_close (d : Nat) (x : Bytes) : strLoop (d + 1) (41 :: x) = pre [41] (strLoop d x) := by
  rw [strLoop.eq_def]; rfl

theorem pre_pre (a b : Bytes) (x : PRes Bytes) : pre a (pre b x) = pre (a ++ b) x := by
  cases x with
  | error e => rfl
  | ok p => simp [pre]

theorem pre_nil (x : PRes Bytes) : pre [] x = x := by
  cases x with
  | error e => rfl
  | ok p => rfl

theorem octal_val (code : Bytes) (b : Byte)
    (h : code.foldl (fun a c => 8 * a + (c.toNat - 48)) 0 = b.toNat) : octal code = [b] := by
  unfold octal
  rw [h]
  have := b.toNat_lt
  have h2 : b.toNat ≤ 255 := by omega
  simp [h2]

theorem notOct_of {t x : Bytes} (h : NotStart (fun c => ∃ k, OctDigit k c) t) :
    ∃ c r, t ++ 41 :: x = c :: r ∧ isOct c = false := by
  cases t with
  | nil => exact ⟨41, x, rfl, rfl⟩
  | cons c t =>
    refine ⟨c, t ++ 41 :: x, rfl, ?_⟩
    cases hc : isOct c with
    | false => rfl
    | true => exact absurd (isOct_octDig c hc) (notStart_cons h)

theorem strLoop_bs (d : Nat) (x : Bytes) : strLoop d (92 :: x) =
    match x with
    | [] => .error .typeError
    | c :: r1 =>
      if isOct c then
        match r1 with
        | [] => .error .typeError
        | c2 :: r2 =>
          if isOct c2 then
            match r2 with
            | [] => .error .typeError
            | c3 :: r3 =>
              if isOct c3 then pre (octal [c, c2, c3]) (strLoop d r3)
              else pre (octal [c, c2]) (strLoop d (c3 :: r3))
          else pre (octal [c]) (strLoop d (c2 :: r2))
      else if c == 13 then
        match r1 with
        | [] => .error .typeError
        | c2 :: r2 => if c2 == 10 then strLoop d r2 else strLoop d (c2 :: r2)
      else if c == 10 then strLoop d r1
      else pre (unescape c) (strLoop d r1) := by
  rw [strLoop.eq_def]
  split
  · rename_i h; cases h
  · rename_i h; cases h; rfl
  · rename_i h1 h; cases h; first | exact (h1 x).elim | exact (h1 rfl).elim | exact h1.elim

theorem strLoop_text {v t : Bytes} (h : StrText v t) : ∀ d x,
    strLoop d (t ++ 41 :: x) = pre v (strLoop d (41 :: x)) := by
  induction h with
  | nil => intro d x; rw [pre_nil]; rfl
  | plain c v t h1 h2 h3 _ _ ih =>
    intro d x
    rw [List.cons_append, strLoop_other d c _ h1 h2 h3, ih, pre_pre]; rfl
  | paren v t v' t' _ _ ih ih' =>
    intro d x
    have : (40 :: (t ++ 41 :: t')) ++ 41 :: x = 40 :: (t ++ 41 :: (t' ++ 41 :: x)) := by simp
    rw [this, strLoop_open, ih, strLoop_close, ih', pre_pre, pre_pre, pre_pre]
    congr 1; simp
  | named l b v t hl _ ih =>
    intro d x
    have key : ∀ p ∈ namedEscapes, isOct p.1 = false ∧ (p.1 == 13) = false ∧ (p.1 == 10) = false ∧
        unescape p.1 = [p.2] := by decide +kernel
    obtain ⟨k1, k2, k3, k4⟩ := key _ hl
    simp only at k1 k2 k3 k4
    rw [List.cons_append, List.cons_append, strLoop_bs]
    simp only [k1, k2, k3, k4, Bool.false_eq_true, if_false]
    rw [ih, pre_pre]; rfl
  | oct1 b a v t ha hn _ ih =>
    intro d x
    obtain ⟨c, r, e, hc⟩ := notOct_of (x := x) hn
    obtain ⟨_, h1, h2⟩ := octDig_val ha
    rw [List.cons_append, List.cons_append, strLoop_bs]
    simp only [h2, if_true]
    rw [e]
    simp only [hc, Bool.false_eq_true, if_false]
    rw [← e, ih, octal_val [a] b (by simp [h1]), pre_pre]; rfl
  | oct2 b a a' v t ha ha' hn _ ih =>
    intro d x
    obtain ⟨c, r, e, hc⟩ := notOct_of (x := x) hn
    obtain ⟨_, h1, h2⟩ := octDig_val ha
    obtain ⟨_, h3, h4⟩ := octDig_val ha'
    rw [List.cons_append, List.cons_append, List.cons_append, strLoop_bs]
    simp only [h2, h4, if_true]
    rw [e]
    simp only [hc, Bool.false_eq_true, if_false]
    rw [← e, ih, octal_val [a, a'] b (by simp [h1, h3]; omega), pre_pre]; rfl
  | oct3 b a a' a'' v t ha ha' ha'' _ ih =>
    intro d x
    obtain ⟨_, h1, h2⟩ := octDig_val ha
    obtain ⟨_, h3, h4⟩ := octDig_val ha'
    obtain ⟨_, h5, h6⟩ := octDig_val ha''
    rw [List.cons_append, List.cons_append, List.cons_append, List.cons_append, strLoop_bs]
    simp only [h2, h4, h6, if_true]
    rw [ih, octal_val [a, a', a''] b (by simp [h1, h3, h5]; omega), pre_pre]; rfl
  | contLF v t _ ih =>
    intro d x
    rw [List.cons_append, List.cons_append, strLoop_bs]
    exact ih d x
  | contCRLF v t _ ih =>
    intro d x
    rw [List.cons_append, List.cons_append, List.cons_append, strLoop_bs]
    exact ih d x
  | contCR v t hn _ ih =>
    intro d x
    rw [List.cons_append, List.cons_append, strLoop_bs]
    have h1 : isOct 13 = false := rfl
    simp only [h1, Bool.false_eq_true, if_false, beq_self_eq_true, if_true]
    cases t with
    | nil => exact ih d x
    | cons c t =>
      have hc : (c == 10) = false := by
        have := notStart_cons hn
        simpa using this
      simp only [List.cons_append, hc, Bool.false_eq_true, if_false]
      exact ih d x

theorem stringP_text {v t x : Bytes} (h : StrText v t) : stringP (t ++ 41 :: x) = .ok (.str v, x) := by
  unfold stringP
  rw [strLoop_text h, strLoop_close0]
  simp [pre]

end PdfReader
