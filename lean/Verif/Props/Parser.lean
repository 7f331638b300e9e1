/-
  Properties C11-C22 (and C57): the object parser. Specification: Verif/Spec/Grammar.lean.
-/
import Verif.Lemmas.Stream
import Verif.Model.Utils
import Mathlib.Data.Rat.Cast.Order
import Mathlib.Tactic.FieldSimp
import Mathlib.Tactic.Ring
import Mathlib.Tactic.NormNum

namespace PdfReader
open Spec

/-! ### C11 -/

/-- C11: every text `t` of an object `o` allowed by the grammar, with any separators before it and any
legal continuation `s ++ r` after it, parses to exactly `o` and leaves exactly the continuation (for a
dictionary: without the separators it looked over). Holds for the file parser, the content parser and
the inline image parser alike. -/
theorem C11_parse_serialisation (cfg : Cfg) (hc : cfg.NoDiv) (o : Obj) (t s0 s r : Bytes)
    (ht : Den cfg.refs (.obj o) t) (h0 : Sep s0) (hf : Follow cfg.refs o s r) :
    parseObject cfg (s0 ++ (t ++ (s ++ r))) = .ok (o, leftover o s r) :=
  parse_den cfg hc ht h0 hf

theorem sep_sp : Sep [32] := .ws 32 [] (by simp [WS]) .nil

/-- `<</A [1 2 0 R (a\)b)] /A true>>` is a text of the dictionary with the single entry `A true`. -/
theorem C11_example_text : Den true (.obj (.dict [(b!"A", .bool true)]))
    (b!"<</A [1 2 0 R (a\\)b)] /A true>>") := by
  have nA : NameText (b!"A") (b!"A") := .plain 65 [] [] ((regular_iff _).mpr rfl) (by decide) .nil
  have one : Den true (.obj (.int 1)) (b!"1") :=
    .int 1 _ (.mk false [] (b!"1") (Or.inl ⟨rfl, Or.inl rfl⟩) ⟨by decide, by simp [Digit]⟩)
  have ref : Den true (.obj (.ref 2 0)) (b!"2 0 R") :=
    .ref (b!"2") (b!"0") [32] [32] rfl ⟨by decide, by simp [Digit]⟩ ⟨by decide, by simp [Digit]⟩ sep_sp (by decide) sep_sp (by decide)
  have str : Den true (.obj (.str (b!"a)b"))) (b!"(a\\)b)") :=
    .str (b!"a)b") (b!"a\\)b") (.plain 97 _ _ (by decide) (by decide) (by decide) (by decide)
      (.named 41 41 _ _ (by decide) (.plain 98 _ _ (by decide) (by decide) (by decide) (by decide) .nil)))
  have st : ∀ {x : Bytes}, Stop (32 :: x) := fun {x} => notStart_mk (fun h => h.1 (by simp [WS]))
  have items : Den true (.items [.int 1, .ref 2 0, .str (b!"a)b")]) (b!"1 2 0 R (a\\)b)") :=
    .itemsCons [] _ _ _ _ .nil one (fun _ => st)
      (.itemsCons [32] _ _ _ _ sep_sp ref (fun _ => st)
        (.itemsCons [32] _ _ _ [] sep_sp str (fun h => by cases h) (.itemsNil [] .nil)))
  have arr : Den true (.obj (.arr [.int 1, .ref 2 0, .str (b!"a)b")])) (b!"[1 2 0 R (a\\)b)]") := .arr _ _ items
  exact .dict [(b!"A", .arr [.int 1, .ref 2 0, .str (b!"a)b")]), (b!"A", .bool true)] (b!"/A [1 2 0 R (a\\)b)] /A true")
    (.entsCons [] (b!"A") (b!"A") [32] _ _ _ _ .nil nA sep_sp st arr (fun h => by cases h)
      (.entsCons [32] (b!"A") (b!"A") [32] _ _ _ [] sep_sp nA sep_sp st .true (fun _ => notStart_nil) (.entsNil [] .nil)))

example : parseObject fileCfg (b!"<</A [1 2 0 R (a\\)b)] /A true>> endobj") =
    .ok (.dict [(b!"A", .bool true)], b!"endobj") :=
  C11_parse_serialisation fileCfg fileCfg_noDiv _ _ [] [32] (b!"endobj") C11_example_text .nil
    { sep := sep_sp
      rest := notStart_mk (by unfold SepChar; rw [ws_iff]; decide)
      stop := by intro h; cases h
      look := by rintro _ ⟨n, h⟩; cases h
      noStream := fun _ => notStart_mk (by decide) }

/-! ### C12 -/

/-- C12: parsing one object terminates on every input: the number of nested calls is bounded by twice
the length of the input, and more fuel does not change the result. -/
theorem C12_terminates (cfg : Cfg) (hc : cfg.NoDiv) (inp : Bytes) :
    parseObject cfg inp ≠ .error .diverges ∧
    ∀ fuel, 2 * inp.length + 1 ≤ fuel → objectP cfg fuel inp = parseObject cfg inp := by
  refine ⟨?_, fun fuel hf => objectP_eq_parse hc hf⟩
  exact objectP_noDiv hc (by unfold fuelFor; omega)

/-- C12: on success the parser has consumed a non-empty prefix: what is left is a proper suffix. -/
theorem C12_proper_suffix (cfg : Cfg) (inp : Bytes) (o : Obj) (r : Bytes) (h : parseObject cfg inp = .ok (o, r)) :
    ∃ p, p ≠ [] ∧ inp = p ++ r := by
  obtain ⟨⟨p, hp⟩, hl⟩ := dropOk ((parser_good _).1 cfg inp) h
  refine ⟨p, ?_, hp.symm⟩
  intro e; subst e
  rw [List.nil_append] at hp
  subst hp; omega

example : parseObject fileCfg (b!"[1 [2]] 3") = .ok (.arr [.int 1, .arr [.int 2]], b!" 3") := by decide +kernel

/-! ### C13 -/

/-- C13 is false: truncated input raises TypeError, which callers catching ParserException do not
expect. -/
theorem C13_truncated_counterexample :
    parseObject fileCfg (b!"[1 2") = .error .typeError ∧
    parseObject fileCfg (b!"(abc") = .error .typeError ∧
    parseObject fileCfg (b!"nul") = .error .typeError ∧
    parseObject fileCfg (b!"%c") = .error .typeError ∧
    parseObject fileCfg [] = .error .typeError ∧
    parseObject fileCfg (b!"1 0 %") = .error .typeError := by decide +kernel

/-- C13 is false: a dictionary without Length followed by a word starting with `s` raises KeyError. -/
theorem C13_keyerror_counterexample : parseObject fileCfg (b!"<<>> startxref") = .error .keyError := by
  decide +kernel

/-- C13, what holds: a failing parse raises ParserException, TypeError or KeyError and nothing else
(plus what the resolution of an indirect Length raises). Missing: that it is always ParserException. -/
theorem C13_failures_partial (cfg : Cfg) (hc : cfg.NoDiv) (inp : Bytes) (e : Exc)
    (h : parseObject cfg inp = .error e) :
    e = .parser ∨ e = .typeError ∨ e = .keyError ∨ ∃ f n g, cfg.len = some f ∧ f n g = .error e := by
  rcases dropErr ((parser_good _).1 cfg inp) h with (h' | h' | h') | h'
  · rcases h' with h' | h'
    · exact Or.inl h'
    · exact Or.inr (Or.inl h')
  · exact Or.inr (Or.inr (Or.inl h'))
  · exact Or.inr (Or.inr (Or.inr h'))
  · exact absurd (h'.1 ▸ h) (C12_terminates cfg hc inp).1

/-! ### C14 and C57: literal strings -/

/-- C14: a literal string text denoting `v` parses to `v` and nothing after its closing parenthesis is
consumed, whatever follows. -/
theorem C14_string (cfg : Cfg) (hc : cfg.NoDiv) (v t x : Bytes) (h : StrText v t) :
    parseObject cfg (40 :: (t ++ 41 :: x)) = .ok (.str v, x) := by
  apply parseObject_of_fuel hc 1
  rw [objectP_start rfl, objBody_str, stringP_text h]

/-- `(a(b\n)\053\
c)`: nested parentheses, escape, octal, continuation. -/
example : parseObject fileCfg (40 :: (b!"a(b\\n)\\053\\\nc" ++ 41 :: b!" rest")) = .ok (.str (b!"a(b\n)+c"), b!" rest") :=
  C14_string fileCfg fileCfg_noDiv _ _ _
    (.plain 97 _ _ (by decide) (by decide) (by decide) (by decide)
      (.paren (b!"b\n") (b!"b\\n") (b!"+c") _
        (.plain 98 _ _ (by decide) (by decide) (by decide) (by decide) (.named 110 10 _ _ (by decide) .nil))
        (.oct3 43 48 53 51 _ _ rfl rfl rfl (.contLF _ _ (.plain 99 _ _ (by decide) (by decide) (by decide) (by decide) .nil)))))

/-- C57 is false of the code: ISO 32000-1 7.3.4.2 reads an unescaped CR or CR LF as LF, drops the
backslash of an unknown escape, and drops the high bit of an octal code above 377. -/
theorem C57_raw_cr_counterexample : parseObject fileCfg (b!"(a\r\nb)") = .ok (.str (b!"a\r\nb"), []) := by decide +kernel
theorem C57_unknown_escape_counterexample : parseObject fileCfg (b!"(\\q)") = .ok (.str (b!"\\q"), []) := by decide +kernel
theorem C57_octal_overflow_counterexample : parseObject fileCfg (b!"(\\501)") = .ok (.str (b!"\\501"), []) := by decide +kernel

/-! ### C15 -/

theorem escape_text (s : Bytes) : StrText s (pdfEscape s) := by
  induction s with
  | nil => exact .nil
  | cons c s ih =>
    have key : ∀ c : Byte, (∃ l, (l, c) ∈ namedEscapes ∧ escapeChar c = [92, l]) ∨
        (escapeChar c = [c] ∧ c ≠ 40 ∧ c ≠ 41 ∧ c ≠ 92 ∧ c ≠ 13) := by
      have h8 : ∀ c : Byte, ((namedEscapes.any (fun p => p.2 == c && escapeChar c == [92, p.1])) = true) ∨
        (escapeChar c = [c] ∧ c ≠ 40 ∧ c ≠ 41 ∧ c ≠ 92 ∧ c ≠ 13) :=
        forall_u8 (fun c => ((namedEscapes.any (fun p => p.2 == c && escapeChar c == [92, p.1])) = true) ∨
          (escapeChar c = [c] ∧ c ≠ 40 ∧ c ≠ 41 ∧ c ≠ 92 ∧ c ≠ 13)) (by decide +kernel)
      intro c
      rcases h8 c with h | h
      · left
        obtain ⟨p, hp, h2⟩ := List.any_eq_true.mp h
        simp only [Bool.and_eq_true, beq_iff_eq] at h2
        exact ⟨p.1, h2.1 ▸ hp, h2.2⟩
      · exact Or.inr h
    rw [pdfEscape]
    rcases key c with ⟨l, hl, he⟩ | ⟨he, h1, h2, h3, h4⟩
    · rw [he]; exact .named l c _ _ hl ih
    · rw [he]; exact .plain c _ _ h1 h2 h3 h4 ih

/-- C15: escaping any string, putting it in parentheses and parsing gives the string back, whatever
follows. -/
theorem C15_escape_roundtrip (cfg : Cfg) (hc : cfg.NoDiv) (s x : Bytes) :
    parseObject cfg (40 :: (pdfEscape s ++ 41 :: x)) = .ok (.str s, x) :=
  C14_string cfg hc s _ x (escape_text s)

example : pdfEscape (b!"a(b\r\\") = b!"a\\(b\\r\\\\" := by decide

/-! ### C16 -/

/-- C16: a name text denoting `n`, followed by a delimiter, white space or nothing, parses to `n` and
what follows is left. -/
theorem C16_name (cfg : Cfg) (hc : cfg.NoDiv) (n t x : Bytes) (h : NameText n t) (hx : Stop x) :
    parseObject cfg (47 :: (t ++ x)) = .ok (.name n, x) := by
  apply parseObject_of_fuel hc 1
  rw [objectP_start rfl, objBody_name]
  unfold nameObj
  rw [nameP_text h hx]

/-- C16: every byte string is the value of some name text. -/
theorem C16_every_bytes_is_a_name (n : Bytes) : ∃ t, NameText n t := by
  induction n with
  | nil => exact ⟨[], .nil⟩
  | cons c n ih =>
    obtain ⟨t, ht⟩ := ih
    have hex : ∀ v : Fin 16, HexDig v.val (hexDigitUp v.val) := fun v => Or.inl
      ((by decide +kernel : ∀ i : Fin 16, (b!"0123456789ABCDEF")[i.val]? = some (hexDigitUp i.val)) v)
    have := c.toNat_lt
    exact ⟨_, .esc c _ _ n t (hex ⟨c.toNat / 16, by omega⟩) (hex ⟨c.toNat % 16, by omega⟩) ht⟩

theorem nameLoop_stops (inp : Bytes) : ∃ t, inp = t ++ (nameLoop inp).2 ∧ (∀ c ∈ t, Regular c) ∧ Stop (nameLoop inp).2 := by
  have hexreg : ∀ c : Byte, (hexVal? c).isSome → isRegular c = true :=
    forall_u8 (fun c => (hexVal? c).isSome → isRegular c = true) (by decide +kernel)
  fun_induction nameLoop inp with
  | case1 => exact ⟨[], rfl, by simp, notStart_nil⟩
  | case2 a b r x y hy hx p ih =>
    obtain ⟨t, h1, h2, h3⟩ := ih
    refine ⟨35 :: a :: b :: t, ?_, ?_, h3⟩
    · simp only [List.cons_append]
      rw [← h1]
    · intro c hc
      simp only [List.mem_cons] at hc
      rcases hc with rfl | rfl | rfl | hc
      · exact (regular_iff _).mpr rfl
      · exact (regular_iff _).mpr (hexreg _ (by rw [hx]; rfl))
      · exact (regular_iff _).mpr (hexreg _ (by rw [hy]; rfl))
      · exact h2 c hc
  | case3 a b r _ p ih =>
    obtain ⟨t, h1, h2, h3⟩ := ih
    refine ⟨35 :: t, ?_, ?_, h3⟩
    · simp only [List.cons_append]; rw [← h1]
    · intro c hc
      simp only [List.mem_cons] at hc
      rcases hc with rfl | hc
      · exact (regular_iff _).mpr rfl
      · exact h2 c hc
  | case4 c r _ hc p ih =>
    obtain ⟨t, h1, h2, h3⟩ := ih
    refine ⟨c :: t, ?_, ?_, h3⟩
    · simp only [List.cons_append]; rw [← h1]
    · intro c' hc'
      simp only [List.mem_cons] at hc'
      rcases hc' with rfl | hc'
      · exact (regular_iff _).mpr hc
      · exact h2 c' hc'
  | case5 c r _ hc =>
    exact ⟨[], rfl, by simp, notStart_mk (by rw [regular_iff]; exact hc)⟩

/-- C16: for any input after `/`, the name extends over exactly the regular characters: parsing never
fails, and stops at the first delimiter, white space or end of input. -/
theorem C16_stops_at_delimiter (cfg : Cfg) (hc : cfg.NoDiv) (inp : Bytes) :
    ∃ n t x, parseObject cfg (47 :: inp) = .ok (.name n, x) ∧ inp = t ++ x ∧ (∀ c ∈ t, Regular c) ∧ Stop x := by
  obtain ⟨t, h1, h2, h3⟩ := nameLoop_stops inp
  refine ⟨(nameLoop inp).1, t, (nameLoop inp).2, ?_, h1, h2, h3⟩
  apply parseObject_of_fuel hc 1
  rw [objectP_start rfl, objBody_name]
  unfold nameObj nameP
  simp

example : parseObject fileCfg (b!"/A#20B#4g/C") = .ok (.name (b!"A B#4g"), b!"/C") := by decide +kernel

/-! ### C17 -/

/-- C17: a hexadecimal string with white space anywhere parses to its digits in upper case, padded to
an even number; what follows `>` is left. -/
theorem C17_hexstring (cfg : Cfg) (hc : cfg.NoDiv) (d t x : Bytes) (h : HexText d t) :
    parseObject cfg (60 :: (t ++ 62 :: x)) = .ok (.hex (padHex d), x) := by
  apply parseObject_of_fuel hc 1
  rw [objectP_start rfl, objBody_lt]
  have hh := hexstring_text (x := x) h
  have : ∃ c1 y, t ++ 62 :: x = c1 :: y ∧ c1 ≠ 60 ∧ (isHex c1 || isWs c1 || c1 == 62) = true := by
    cases h with
    | nil => exact ⟨62, _, rfl, by decide, rfl⟩
    | ws c d t hc _ =>
      refine ⟨c, _, rfl, ?_, by simp [(ws_iff c).mp hc]⟩
      intro h; subst h
      have := (ws_iff 60).mp hc
      cases this
    | digit v u c d t hu hc _ =>
      obtain ⟨_, h2, _, _⟩ := hexUp_val hu hc
      refine ⟨c, _, rfl, ?_, by simp [h2]⟩
      intro h; subst h; cases h2
  obtain ⟨c1, y, e, h1, h2⟩ := this
  rw [e] at hh ⊢
  unfold dictOrHex
  simp only [if_neg h1, h2, if_true]
  rw [hh]

example : parseObject fileCfg (b!"< 0a F> x") = .ok (.hex (b!"0AF0"), b!" x") := by decide +kernel

/-! ### C18 -/

/-- C18: an integer text of any length, followed by anything that is not a digit or a point, parses to
its exact value (in the content parser, where no reference can follow; for the file parser see
C19). -/
theorem C18_integer (n : Int) (t x : Bytes) (h : IntText n t) (hx : NotStart Digit x) (hp : NotStart (· = 46) x) :
    parseObject contentCfg (t ++ x) = .ok (.int n, x) := by
  have hn := numeric_int h hx hp
  apply parseObject_of_fuel contentCfg_noDiv 1
  cases h with
  | mk neg sg ds h1 h2 =>
    rw [List.append_assoc] at hn ⊢
    obtain ⟨c, t', e, hc⟩ := signed_head h1 h2 x
    rw [e] at hn ⊢
    have hos : objStart c = true := by
      rcases hc with h | h | h
      · exact digit_objStart c h
      · subst h; rfl
      · subst h; rfl
    rw [objectP_start hos]
    rcases hc with hc | hc | hc
    · rw [objBody_digit hc]; exact hn
    · rw [objBody_sign (Or.inl hc)]; exact hn
    · rw [objBody_sign (Or.inr (Or.inl hc))]; exact hn

/-- The number denoted by a `Decimal` with the given coefficient and exponent. -/
def decimalValue (c e : Int) : ℚ := (c : ℚ) * (10 : ℚ) ^ e

/-- The number denoted by `ip.fp`. -/
def decimalText (ip fp : Bytes) : ℚ := decVal ip + decVal fp / 10 ^ fp.length

/-- C18: a real text `±ip.fp` parses to exactly the number it denotes: always when not negative, and for
negative numbers when the digits form a number below 10^28. -/
theorem C18_real (neg : Bool) (sg ip fp x : Bytes) (hs : SignText neg sg) (hip : ∀ c ∈ ip, Digit c)
    (hfp : ∀ c ∈ fp, Digit c) (hne : ¬ (ip = [] ∧ fp = [])) (hx : NotStart Digit x)
    (hneg : neg = true → decVal (ip ++ (if fp = [] then [48] else fp)) < 10 ^ 28) :
    ∃ c e, numeric (sg ++ (ip ++ 46 :: (fp ++ x))) = .ok (.real c e, x) ∧
      decimalValue c e = (if neg then -1 else 1) * decimalText ip fp := by
  rw [numeric_real_aux hs hip hfp hne hx]
  simp only
  have hv : ∀ fp', decVal ((if ip = [] then [48] else ip) ++ fp') = decVal (ip ++ fp') := by
    intro fp'
    split
    · rename_i h; subst h; simp [decVal]
    · rfl
  rw [hv]
  have val : ∀ (sgn : ℚ) (fp' : Bytes), (fp' = fp ∨ (fp = [] ∧ fp' = [48])) →
      sgn * (decVal (ip ++ fp') : ℚ) * (10 : ℚ) ^ (-(fp'.length : Int)) = sgn * decimalText ip fp := by
    intro sgn fp' hfp'
    rw [decVal_append, zpow_neg, zpow_natCast]
    unfold decimalText
    rcases hfp' with rfl | ⟨rfl, rfl⟩
    · have : (10 : ℚ) ^ fp'.length ≠ 0 := by positivity
      push_cast
      field_simp
    · simp [decVal]; ring
  have hcase : (if fp = [] then [48] else fp) = fp ∨ (fp = [] ∧ (if fp = [] then [48] else fp) = [48]) := by
    by_cases h : fp = []
    · right; simp [h]
    · left; simp [h]
  cases neg with
  | false =>
    refine ⟨_, _, rfl, ?_⟩
    have := val 1 _ hcase
    unfold decimalValue
    simp only [Bool.false_eq_true, if_false, one_mul] at this ⊢
    rw [← this]; push_cast; rfl
  | true =>
    have hsm := hneg rfl
    simp only [if_true]
    rw [negReal_small _ _ _ hsm]
    refine ⟨_, _, rfl, ?_⟩
    have := val (-1) _ hcase
    unfold decimalValue
    rw [← this]; push_cast; ring

/-- C18, beyond the limit: a negative real of 29 significant digits is rounded to 28. -/
theorem C18_negative_real_counterexample :
    numeric (b!"-12345678901234567890123456785.1") = .ok (.real (-1234567890123456789012345679) 1, []) ∧
    numeric (b!"12345678901234567890123456785.1") = .ok (.real 123456789012345678901234567851 (-1), []) := by
  decide +kernel

example : numeric (b!"-.5 ") = .ok (.real (-5) (-1), b!" ") := by decide +kernel

/-! ### C19 -/

/-- C19: `n g R` is read as the reference, whatever follows the `R`. -/
theorem C19_reference (cfg : Cfg) (hc : cfg.NoDiv) (hr : cfg.refs = true) (ds gs s₁ s₂ x : Bytes) (hd : Digits ds) (hg : Digits gs)
    (h1 : Sep s₁) (n1 : s₁ ≠ []) (h2 : Sep s₂) (n2 : s₂ ≠ []) :
    parseObject cfg (ds ++ (s₁ ++ (gs ++ (s₂ ++ 82 :: x)))) = .ok (.ref (decVal ds) (decVal gs), x) := by
  apply parseObject_of_fuel hc 1
  have hh := numericOrRef_ref (x := x) hd hg h1 n1 h2 n2
  obtain ⟨c, t, rfl, hcd⟩ := digits_head hd
  rw [List.cons_append] at hh ⊢
  rw [objectP_start (digit_objStart c hcd), objBody_digit hcd, if_pos hr, hh]

/-- C19: whatever follows a non-negative integer (not a digit or a point), the parser either reads a complete
reference, or returns the number and leaves everything after it untouched, or (only if the input
ends inside a comment) raises TypeError. -/
theorem C19_number_or_reference (cfg : Cfg) (hr : cfg.refs = true) (ds x : Bytes) (hd : Digits ds)
    (hx : NotStart Digit x) (hp : NotStart (· = 46) x) :
    parseObject cfg (ds ++ x) = .ok (.int (decVal ds), x) ∨
    (∃ s₁ neg sg gs s₂ r, x = s₁ ++ (sg ++ (gs ++ (s₂ ++ 82 :: r))) ∧ SignText neg sg ∧ Digits gs ∧
      ∃ g, parseObject cfg (ds ++ x) = .ok (.ref (decVal ds) g, r)) ∨
    ((∃ a, skipSC true a = .error .typeError ∧ ∃ b, x = b ++ 37 :: a) ∧ parseObject cfg (ds ++ x) = .error .typeError) := by
  have hstart : ∃ c t, ds ++ x = c :: t ∧ isDigit c = true := by
    obtain ⟨c, t, rfl, h⟩ := digits_head hd
    exact ⟨c, t ++ x, rfl, h⟩
  have hparse : parseObject cfg (ds ++ x) = numericOrRef (ds ++ x) := by
    obtain ⟨c, t, e, h⟩ := hstart
    unfold parseObject fuelFor
    rw [e, objectP_start (digit_objStart c h), objBody_digit h, if_pos hr]
  have hnum : numeric (ds ++ x) = .ok (.int (decVal ds), x) := by
    have := numeric_int (x := x) (IntText.mk false [] ds (Or.inl ⟨rfl, Or.inl rfl⟩) hd) hx hp
    simpa using this
  have skipErr : ∀ y, ∀ e, skipSC false y = .error e → ∃ b a, y = b ++ 37 :: a ∧ skipSC true a = .error .typeError := by
    intro y
    have gen : ∀ y : Bytes, (∀ e, skipSC false y = .error e → ∃ b a, y = b ++ 37 :: a ∧ skipSC true a = .error .typeError) ∧
        (∀ e, skipSC true y = .error e → e = .typeError) := by
      intro y
      refine ⟨?_, fun e h => by have := skipSC_good y true; rw [h] at this; exact this⟩
      induction y with
      | nil => intro e h; cases h
      | cons c y ih =>
        intro e h
        unfold skipSC at h
        split at h
        · obtain ⟨b, a, e1, h1⟩ := ih e h
          exact ⟨c :: b, a, by rw [e1]; rfl, h1⟩
        · split at h
          · rename_i hc
            have : c = 37 := by simpa using hc
            subst this
            refine ⟨[], y, rfl, ?_⟩
            have := skipSC_good y true; rw [h] at this
            rw [h, this]
          · cases h
    exact (gen y).1
  have skipOk : ∀ y r, skipSC false y = .ok r → ∃ s, y = s ++ r := by
    intro y r h
    obtain ⟨s, hs⟩ := skipSC_ok h
    exact ⟨s, hs.symm⟩
  rw [hparse]
  unfold numericOrRef indirectRef
  rw [nonNegInt_digits hd hx hp]
  simp only
  cases e1 : skipSC false x with
  | error e =>
    right; right
    obtain ⟨b, a, h1, h2⟩ := skipErr x e e1
    have := skipSC_err e1
    subst this
    exact ⟨⟨a, h2, b, h1⟩, rfl⟩
  | ok r1 =>
    obtain ⟨s1, hs1⟩ := skipOk _ _ e1
    simp only
    cases e2 : nonNegInt r1 with
    | error e => left; rw [nonNegInt_err e2]; exact hnum
    | ok p =>
      obtain ⟨g, r2⟩ := p
      simp only
      obtain ⟨neg, sg, gs, h1, h2, h3, h4⟩ := nonNegInt_inv e2
      cases e3 : skipSC false r2 with
      | error e =>
        right; right
        obtain ⟨b, a, hb, h6⟩ := skipErr _ e e3
        have := skipSC_err e3
        subst this
        refine ⟨⟨a, h6, s1 ++ (sg ++ (gs ++ b)), ?_⟩, rfl⟩
        rw [hs1, h1, hb]; simp
      | ok r3 =>
        obtain ⟨s2, hs2⟩ := skipOk _ _ e3
        cases r3 with
        | nil => left; exact hnum
        | cons c r =>
          by_cases hR : c = 82
          · subst hR
            right; left
            refine ⟨s1, neg, sg, gs, s2, r, ?_, h2, h3, g, ?_⟩
            · rw [hs1, h1, hs2]
            · simp
          · left
            simp only [if_neg hR]
            exact hnum

example : parseObject fileCfg (b!"12 0 obj") = .ok (.int 12, b!" 0 obj") := by decide +kernel
example : parseObject fileCfg (b!"12 %c\n 0 R") = .ok (.ref 12 0, []) := by decide +kernel

/-! ### C20 -/

/-- C20: a dictionary written with any sequence of entries (keys possibly repeated) parses to a
dictionary in which each key has the last value given to it, keys not written are absent, and keys
are in the order of their first occurrence. -/
theorem C20_last_wins (cfg : Cfg) (hc : cfg.NoDiv) (raw : List (Bytes × Obj)) (u s r : Bytes)
    (hu : Den cfg.refs (.ents raw) u) (hs : Sep s) (hr : NotStart SepChar r) (hns : NotStart (· = 115) r) :
    ∃ d, parseObject cfg (60 :: 60 :: (u ++ 62 :: 62 :: (s ++ r))) = .ok (.dict d, r) ∧
      (∀ k, dictGet d k = lastVal raw k) ∧ d.map (·.1) = (raw.map (·.1)).eraseDups := by
  refine ⟨dictOf raw, ?_, dictGet_dictOf raw, keys_dictOf raw⟩
  have := parse_den cfg hc (s0 := []) (Den.dict raw u hu) .nil
    (s := s) (r := r) { sep := hs, rest := hr, stop := (by intro h; cases h), look := (by rintro _ ⟨n, h⟩; cases h), noStream := fun _ => hns }
  simpa [leftover] using this

example : parseObject fileCfg (b!"<</A 1/B 2/A 3>>") = .ok (.dict [(b!"A", .int 3), (b!"B", .int 2)], []) := by
  decide +kernel

/-! ### C21, C22: streams -/

/-- C21: with a correct direct Length the data is read verbatim, whatever bytes it contains (also
`endstream`), whatever the dictionary and white space before `endstream`. -/
theorem C21_stream_verbatim (cfg : Cfg) (hc : cfg.NoDiv) (raw : List (Bytes × Obj)) (u s nl data w x : Bytes)
    (hu : Den cfg.refs (.ents raw) u) (hs : Sep s) (hnl : nl = [10] ∨ nl = [13, 10]) (hw : ∀ c ∈ w, WS c)
    (hlen : lastVal raw (b!"Length") = some (.int data.length)) :
    parseObject cfg (60 :: 60 :: (u ++ 62 :: 62 :: (s ++ (b!"stream" ++ (nl ++ (data ++ (w ++ (b!"endstream" ++ x)))))))) =
      .ok (.stream (dictOf raw) data, x) := by
  rw [parse_dict_stream cfg hc hu hs]
  unfold streamP
  rw [dictGet_dictOf, hlen]
  exact streamBody_exact _ _ _ _ _ hnl hw

/-- C21: the same when Length is a reference that the document resolves to the right length; the
Length entry of the result is the resolved number. -/
theorem C21_indirect_length (cfg : Cfg) (hc : cfg.NoDiv) (raw : List (Bytes × Obj)) (u s nl data w x : Bytes)
    (f : Nat → Nat → Res Obj) (n g : Nat) (hcf : cfg.len = some f) (hf : f n g = .ok (.int data.length))
    (hu : Den cfg.refs (.ents raw) u) (hs : Sep s) (hnl : nl = [10] ∨ nl = [13, 10]) (hw : ∀ c ∈ w, WS c)
    (hlen : lastVal raw (b!"Length") = some (.ref n g)) :
    parseObject cfg (60 :: 60 :: (u ++ 62 :: 62 :: (s ++ (b!"stream" ++ (nl ++ (data ++ (w ++ (b!"endstream" ++ x)))))))) =
      .ok (.stream (dictOf (raw ++ [(b!"Length", .int data.length)])) data, x) := by
  rw [parse_dict_stream cfg hc hu hs]
  unfold streamP
  rw [dictGet_dictOf, hlen]
  simp only
  rw [hcf]
  simp only
  rw [hf, dictOf_snoc]
  exact streamBody_exact _ _ _ _ _ hnl hw

example : parseObject fileCfg (b!"<</Length 11>> stream\nxendstreamy\nendstream endobj") =
    .ok (.stream [(b!"Length", .int 11)] (b!"xendstreamy"), b!" endobj") := by decide +kernel

/-- C22: if, after `Length` bytes and white space, the next nine bytes exist and are not `endstream`,
the data is what precedes the first `endstream`, without the line ends at its end. Missing: a Length so
large that the input ends first (counterexample below). -/
theorem C22_wrong_length_partial (cfg : Cfg) (hc : cfg.NoDiv) (raw : List (Bytes × Obj)) (n : Int) (u s nl body eols w y x : Bytes)
    (hu : Den cfg.refs (.ents raw) u) (hs : Sep s) (hnl : nl = [10] ∨ nl = [13, 10])
    (hlen : lastVal raw (b!"Length") = some (.int n))
    (he : ∀ c ∈ eols, Eol c) (hb : ∀ c t, body = t ++ [c] → ¬ Eol c)
    (hfirst : ∀ a b, (body ++ eols) ++ (b!"endstream" ++ x) = a ++ (b!"endstream" ++ b) → (body ++ eols).length ≤ a.length)
    (hn : n.toNat ≤ ((body ++ eols) ++ (b!"endstream" ++ x)).length)
    (hy : ((body ++ eols) ++ (b!"endstream" ++ x)).drop n.toNat = w ++ y) (hw : ∀ c ∈ w, WS c)
    (hyw : NotStart WS y) (hy9 : 9 ≤ y.length) (hye : y.take 9 ≠ b!"endstream") :
    parseObject cfg (60 :: 60 :: (u ++ 62 :: 62 :: (s ++ (b!"stream" ++ (nl ++ ((body ++ eols) ++ (b!"endstream" ++ x))))))) =
      .ok (.stream (dictOf raw) body, x) := by
  rw [parse_dict_stream cfg hc hu hs]
  unfold streamP
  rw [dictGet_dictOf, hlen]
  exact streamBody_recover _ n nl body eols w y x hnl he hb hfirst hn hy hw hyw hy9 hye

example : parseObject fileCfg (b!"<</Length 3>>stream\nabcdef\r\nendstream\nendobj") =
    .ok (.stream [(b!"Length", .int 3)] (b!"abcdef"), b!"\nendobj") := by decide +kernel

/-- C22 fails when Length points beyond the end of the input: TypeError instead of recovery. -/
theorem C22_past_eof_counterexample :
    parseObject fileCfg (b!"<</Length 99>>stream\nabcdef\nendstream\nendobj") = .error .typeError := by decide +kernel

end PdfReader
