/-
  The text of a rendered page is a content again (C103).
-/
import Verif.Lemmas.Told
import Verif.Props.Viewer
import Verif.Props.Content
import Verif.Model.Security

namespace PdfReader

open Spec

/-- Content whose operands can be told: rendering succeeds, and the text of the canvas, read as a content, has the same operators in the same order with the
same operands, where the strings shown are the decoded texts. -/
theorem C103_text_content_partial (enc : Nat → Bytes) (ha : AsciiBased enc) (h : Host) (res : Resources) (hn : Named res) (s : Bytes) (cs : List Content)
    (hc : contentObjects s = (cs, none)) (ts : List Text) (fs' : List (Option Bytes)) (hs : Shows (decoding h.decode res) (PlainDo h res) (PlainGs h res) [none] cs fs' ts)
    (ds : List Content) (hr : Retold enc cs ts ds) :
    ∃ p, renderPage h res s {} = (.ok (), p) ∧ contentObjects (encoded enc p.canvas.text) = (ds, none) := by
  obtain ⟨u, i, j⟩ := shows_tells ha hn (onDo := onDoPage h res) (onNav := resetPaint) (quiet_onDo h res) (fun f fs args hd => leaves_do hn f (f :: fs) args hd) (goes_gs hn) hs ds hr
  obtain ⟨p, e, _, t⟩ := i {} (paint_init res)
  have t' : p.canvas.text = u := t
  refine ⟨p, ?_, by rw [t']; exact C23_commands ds _ j.text⟩
  unfold renderPage renderStream
  rw [hc]
  dsimp only
  rw [DM.bind_eq e]
  rfl

/-- Latin-1; other characters are left out. -/
def latin1Char (c : Nat) : Bytes := if c < 256 then [UInt8.ofNat c] else []

/-- UTF-8; what is no character is left out. -/
def utf8Bytes (c : Nat) : Bytes := if c < 0x110000 then (utf8Char c).toOption.getD [] else []

theorem latin1Char_ascii : AsciiBased latin1Char := by
  refine ⟨fun c hc => if_pos (by omega), fun c hc b hb => ?_⟩
  unfold latin1Char at hb
  split at hb
  · rw [List.mem_singleton] at hb
    subst hb
    rw [UInt8.toNat_ofNat']
    omega
  · cases hb

theorem utf8Bytes_ascii : AsciiBased utf8Bytes := by
  refine ⟨fun c hc => ?_, fun c hc b hb => ?_⟩
  · unfold utf8Bytes utf8Char
    rw [if_pos (by omega), if_pos (by omega)]
    rfl
  · unfold utf8Bytes at hb
    split at hb
    · unfold utf8Char at hb
      split at hb
      · omega
      · split at hb
        · have hb' : b ∈ [UInt8.ofNat (0xC0 + c / 64), UInt8.ofNat (0x80 + c % 64)] := hb
          simp only [List.mem_cons, List.not_mem_nil, or_false] at hb'
          rcases hb' with rfl | rfl <;> rw [UInt8.toNat_ofNat'] <;> omega
        · split at hb
          · cases hb
          · split at hb
            · have hb' : b ∈ [UInt8.ofNat (0xE0 + c / 4096), UInt8.ofNat (0x80 + c / 64 % 64), UInt8.ofNat (0x80 + c % 64)] := hb
              simp only [List.mem_cons, List.not_mem_nil, or_false] at hb'
              rcases hb' with rfl | rfl | rfl <;> rw [UInt8.toNat_ofNat'] <;> omega
            · have hb' : b ∈ [UInt8.ofNat (0xF0 + c / 262144), UInt8.ofNat (0x80 + c / 4096 % 64), UInt8.ofNat (0x80 + c / 64 % 64), UInt8.ofNat (0x80 + c % 64)] := hb
              simp only [List.mem_cons, List.not_mem_nil, or_false] at hb'
              rcases hb' with rfl | rfl | rfl | rfl <;> rw [UInt8.toNat_ofNat'] <;> omega
    · cases hb

theorem sayable_plain {o : Obj} (h : Sayable o) : Plain o := by
  induction h with
  | null => exact .null
  | bool b => exact .bool b
  | int n => exact .int n
  | real c e => exact .real c e
  | name n => exact .name n
  | arr xs _ ih => exact .arr xs ih
  | dict es _ _ _ ih => exact .dict es ih

theorem latin1_encoded : ∀ t : Text, (∀ c ∈ t, c < 256) → latin1 (.str (encoded latin1Char t)) = some t
  | [], _ => rfl
  | c :: t, h => by
    have ih := latin1_encoded t fun c hc => h c (by simp [hc])
    unfold latin1 at ih ⊢
    dsimp only at ih ⊢
    injection ih with ih
    have e : encoded latin1Char (c :: t) = UInt8.ofNat c :: encoded latin1Char t := by
      unfold encoded
      rw [List.flatMap_cons]
      unfold latin1Char
      rw [if_pos (h c (by simp))]
      rfl
    rw [e, List.map_cons, ih, UInt8.toNat_ofNat', Nat.mod_eq_of_lt (h c (by simp))]

theorem items_again {xs ys : List Obj} {us : List Text} {dec dec' : Obj → Option Text} (hd : ∀ t ∈ us, dec' (.str (encoded latin1Char t)) = some t)
    (hx : ∀ x ∈ xs, Plain x) (ht : TextsOf dec xs us) (hr : RetoldItems latin1Char xs us ys) : TextsOf dec' ys us ∧ ∀ y ∈ ys, Plain y := by
  induction hr with
  | nil => exact ⟨.nil, fun y hy => by cases hy⟩
  | string o t xs ys ts hs _ ih =>
    cases ht with
    | string _ _ _ _ _ _ ht =>
      obtain ⟨i, j⟩ := ih (fun t ht => hd t (by simp [ht])) (fun x hx' => hx x (by simp [hx'])) ht
      refine ⟨.string _ _ _ _ (.inl ⟨_, rfl⟩) (hd t (by simp)) i, fun y hy => ?_⟩
      rcases List.mem_cons.mp hy with rfl | hy
      · exact .str _
      · exact j y hy
    | other _ _ _ h1 h2 ht =>
      rcases hs with ⟨s, rfl⟩ | ⟨s, rfl⟩
      · exact absurd rfl (h1 s)
      · exact absurd rfl (h2 s)
  | other o xs ys ts ho _ ih =>
    cases ht with
    | string _ _ _ _ hs _ ht => rcases hs with ⟨s, rfl⟩ | ⟨s, rfl⟩ <;> cases ho
    | other _ _ _ h1 h2 ht =>
      obtain ⟨i, j⟩ := ih hd (fun x hx' => hx x (by simp [hx'])) ht
      refine ⟨.other _ _ _ h1 h2 i, fun y hy => ?_⟩
      rcases List.mem_cons.mp hy with rfl | hy
      · exact hx y (by simp)
      · exact j y hy

theorem decoding_bare (decode : Val → Obj → Res Text) (f : Option Bytes) (o : Obj) : decoding decode [] f o = latin1 o := by
  unfold decoding
  cases f <;> rfl

theorem shows_again {h h' : Host} {res : Resources} {fs fs' : List (Option Bytes)} {cs : List Content} {ts : List Text}
    (hs : Shows (decoding h.decode res) (PlainDo h res) (PlainGs h res) fs cs fs' ts) : (∀ t ∈ ts, ∀ c ∈ t, c < 256) → ∀ ds, Retold latin1Char cs ts ds →
      Shows (decoding h'.decode []) (PlainDo h' []) (PlainGs h' []) fs ds fs' ts := by
  have plain : ∀ {args : List Obj}, (∀ o ∈ args, Sayable o) → ∀ o ∈ args, Plain o := fun h o ho => sayable_plain (h o ho)
  induction hs with
  | nil fs => intro _ ds hr; cases hr; exact .nil fs
  | image d data fs fs' cs ts hi _ ih => intro _ ds hr; cases hr
  | save args f fs fs' cs ts hp _ ih =>
    intro hb ds hr
    cases hr with
    | other _ _ _ ds _ _ hsay hl hr => exact .save _ _ _ _ _ _ (plain hsay) (ih hb ds hr)
    | one name o t _ _ _ hname _ => exact absurd hname (by decide)
    | many name xs ys us _ _ _ hname _ _ => exact absurd hname (by decide)
  | restore args f g fs fs' cs ts hp _ ih =>
    intro hb ds hr
    cases hr with
    | other _ _ _ ds _ _ hsay hl hr => exact .restore _ _ _ _ _ _ _ (plain hsay) (ih hb ds hr)
    | one name o t _ _ _ hname _ => exact absurd hname (by decide)
    | many name xs ys us _ _ _ hname _ _ => exact absurd hname (by decide)
  | font n size f fs fs' cs ts hp _ ih =>
    intro hb ds hr
    cases hr with
    | other _ _ _ ds _ _ hsay hl hr => exact .font _ _ _ _ _ _ _ hp (ih hb ds hr)
  | one name o t f fs fs' cs ts hname hd _ ih =>
    intro hb ds hr
    generalize hts : t :: ts = tts at hr
    cases hr with
    | one _ _ _ _ ds _ _ hr =>
      obtain ⟨rfl, rfl⟩ := List.cons.inj hts
      exact .one _ _ _ _ _ _ _ _ hname (by rw [decoding_bare]; exact latin1_encoded t (hb t (by simp))) (ih (fun t ht => hb t (by simp [ht])) ds hr)
    | many _ xs ys us _ _ _ hname' _ _ => subst hname'; exact absurd hname (by decide)
    | other _ _ _ ds _ hno _ _ _ =>
      rcases hname with rfl | rfl
      · exact absurd (by decide) hno
      · exact absurd (by decide) hno
  | many xs us f fs fs' cs ts hp ht _ ih =>
    intro hb ds hr
    generalize hts : us ++ ts = tts at hr
    cases hr with
    | one _ _ _ _ _ _ hname _ => exact absurd hname (by decide)
    | many _ _ ys us' _ ds ts' _ hri hr =>
      obtain ⟨rfl, rfl⟩ := List.append_inj hts (by rw [texts_count ht, retold_count hri])
      obtain ⟨i, j⟩ := items_again (dec' := decoding h'.decode [] f)
        (fun t ht => by rw [decoding_bare]; exact latin1_encoded t (hb t (List.mem_append_left _ ht))) hp ht hri
      exact .many _ _ _ _ _ _ _ j i (ih (fun t ht => hb t (List.mem_append_right _ ht)) ds hr)
    | other _ _ _ ds _ hno _ _ _ => exact absurd (by decide) hno
  | xobject args f fs fs' cs ts hp hok _ ih =>
    intro hb ds hr
    cases hr with
    | other _ _ _ ds _ _ hsay hl hr =>
      obtain ⟨n, rest, rfl, _⟩ := hok
      exact .xobject _ _ _ _ _ _ hp ⟨n, rest, rfl, fun es d h => by cases h⟩ (ih hb ds hr)
    | one name o t _ _ _ hname _ => exact absurd hname (by decide)
    | many name xs ys us _ _ _ hname _ _ => exact absurd hname (by decide)
  | state args fs fs' cs ts hp hok _ ih =>
    intro hb ds hr
    cases hr with
    | other _ _ _ ds _ _ hsay hl hr =>
      obtain ⟨n, rest, rfl, _⟩ := hok
      exact .state _ _ _ _ _ hp ⟨n, rest, rfl, fun v h => by cases h⟩ (ih hb ds hr)
    | one name o t _ _ _ hname _ => exact absurd hname (by decide)
    | many name xs ys us _ _ _ hname _ _ => exact absurd hname (by decide)
  | marked name tag props f fs fs' cs ts hname h1 h2 hd _ ih =>
    intro hb ds hr
    cases hr with
    | other _ _ _ ds _ _ hsay hl hr =>
      exact .marked _ _ _ _ _ _ _ _ hname h1 h2 (fun es s _ _ => ⟨_, by rw [decoding_bare]; rfl⟩) (ih hb ds hr)
  | other name args fs fs' cs ts h1 h2 h3 hp _ ih =>
    intro hb ds hr
    cases hr with
    | other _ _ _ ds _ _ hsay hl hr => exact .other _ _ _ _ _ _ h1 h2 h3 hp (ih hb ds hr)
    | one _ o t _ _ _ hname _ => rcases hname with rfl | rfl <;> exact absurd (by decide) h2
    | many _ xs ys us _ _ _ hname _ _ => subst hname; exact absurd (by decide) h2

/-- If the texts are in Latin-1, rendering the text of the canvas once more, without any resources, shows the same strings again. -/
theorem C103_again_partial (h h' : Host) (res : Resources) (hn : Named res) (s : Bytes) (cs : List Content)
    (hc : contentObjects s = (cs, none)) (ts : List Text) (fs' : List (Option Bytes)) (hs : Shows (decoding h.decode res) (PlainDo h res) (PlainGs h res) [none] cs fs' ts)
    (hb : ∀ t ∈ ts, ∀ c ∈ t, c < 256) (ds : List Content) (hr : Retold latin1Char cs ts ds) :
    ∃ p q, renderPage h res s {} = (.ok (), p) ∧ p.canvas.strings = ts ∧
      renderPage h' [] (encoded latin1Char p.canvas.text) {} = (.ok (), q) ∧ q.canvas.strings = ts := by
  obtain ⟨p, e1, e2⟩ := C103_text_content_partial latin1Char latin1Char_ascii h res hn s cs hc ts fs' hs ds hr
  obtain ⟨p', e3, e4, _⟩ := C53_strings_partial h res hn s cs hc ts fs' hs
  rw [e1] at e3
  cases e3
  obtain ⟨q, e5, e6, _⟩ := C53_strings_partial h' [] (fun cat _ ns h => by cases h) _ ds e2 ts fs' (shows_again hs hb ds hr)
  exact ⟨p, q, e1, e4, e5, e6⟩

/-! ### An example -/

/-- The sample of C53 can be told. -/
theorem sample_retold : Retold utf8Bytes
    [.op b!"q" [], .op b!"Tj" [.str b!"a"], .op b!"Tf" [.name b!"F1", .int 9], .op b!"TJ" [.arr [.str b!"b", .int 3, .hex b!"63"]], .op b!"Q" [], .op b!"'" [.str b!"d"],
      .op b!"Do" [.name b!"Im"]] [asc b!"a", asc b!"xb", asc b!"xc", asc b!"d"]
    [.op b!"q" [], .op b!"Tj" [.str b!"a"], .op b!"Tf" [.name b!"F1", .int 9], .op b!"TJ" [.arr [.str b!"xb", .int 3, .str b!"xc"]], .op b!"Q" [], .op b!"'" [.str b!"d"],
      .op b!"Do" [.name b!"Im"]] := by
  have none : ∀ o ∈ ([] : List Obj), Sayable o := fun o h => by cases h
  have key : ∀ n ∈ [b!"F1", b!"Im"], PlainName n := by
    have : ∀ n ∈ [b!"F1", b!"Im"], ∀ c ∈ n, isRegular c = true ∧ c ≠ 35 ∧ c.toNat < 128 := by decide
    exact fun n hn c hc => ⟨(regular_iff c).mpr (this n hn c hc).1, (this n hn c hc).2⟩
  refine .other _ _ _ _ _ (by decide) none (fun d h => by cases h) ?_
  refine .one b!"Tj" _ (asc b!"a") _ _ _ (.inl rfl) ?_
  refine .other _ _ _ _ _ (by decide) ?_ (fun d h => by cases h) ?_
  · intro o ho
    simp only [List.mem_cons, List.not_mem_nil, or_false] at ho
    rcases ho with rfl | rfl
    · exact .name _ (key _ (by simp))
    · exact .int 9
  refine .many b!"TJ" _ _ [asc b!"xb", asc b!"xc"] _ _ _ rfl (.string _ (asc b!"xb") _ _ _ (.inl ⟨_, rfl⟩) (.other _ _ _ _ (.int 3) (.string _ (asc b!"xc") _ _ _ (.inr ⟨_, rfl⟩) .nil))) ?_
  refine .other _ _ _ _ _ (by decide) none (fun d h => by cases h) ?_
  refine .one b!"'" _ (asc b!"d") _ _ _ (.inr rfl) ?_
  refine .other _ _ _ _ _ (by decide) ?_ (fun d h => by cases h) .nil
  intro o ho
  rw [List.mem_singleton] at ho
  subst ho
  exact .name _ (key _ (by simp))

/-- The text of a page. -/
def textOf (h : Host) (res : Resources) (s : Bytes) : Res Text :=
  match renderPage h res s {} with
  | (.ok _, p) => .ok p.canvas.text
  | (.error e, _) => .error e

example : textOf plainHost sampleResources b!"q (a) Tj /F1 9 Tf [(b) 3 <63>] TJ Q (d) ' /Im Do" =
    .ok (asc b!"\n q\n(a) Tj\n/F1 9 Tf\n[(xb) 3 (xc)] TJ\n Q\n(d) '\n/Im Do") := by decide +kernel

/-! ### What cannot be told -/

/-- Strings outside of text-showing operators are printed without parentheses, and become keywords, names of operators. -/
theorem C103_strings_counterexample : contentObjects b!"/Span <</ActualText (a)>> BDC" = ([.op b!"BDC" [.name b!"Span", .dict [(b!"ActualText", .str b!"a")]]], none) ∧
    textOf plainHost [] b!"/Span <</ActualText (a)>> BDC" = .ok (asc b!"\n/Span <</ActualText a>> BDC") ∧
    (contentObjects b!"\n/Span <</ActualText a>> BDC").1 ≠ [.op b!"BDC" [.name b!"Span", .dict [(b!"ActualText", .str b!"a")]]] := by decide +kernel

/-- Names lose their `#`. -/
theorem C103_names_counterexample : contentObjects b!"/A#20B gs" = ([.op b!"gs" [.name b!"A B"]], none) ∧ textOf plainHost [] b!"/A#20B gs" = .ok (asc b!"\n/A B gs") ∧
    contentObjects b!"\n/A B gs" = ([.op b!"B" [.name b!"A"], .op b!"gs" []], none) := by decide +kernel

/-- Small reals are printed with an exponent, which is no number of PDF. -/
theorem C103_reals_counterexample : contentObjects b!"0.0000001 w" = ([.op b!"w" [.real 1 (-7)]], none) ∧ textOf plainHost [] b!"0.0000001 w" = .ok (asc b!"\n1E-7 w") ∧
    contentObjects b!"\n1E-7 w" = ([.op b!"E-7" [.int 1], .op b!"w" []], none) := by decide +kernel

/-- Inline images get a filter of the wrong alphabet: `base64.b85encode` is not ASCII85, and a missing filter becomes a filter `None`. -/
theorem C103_images_counterexample : contentObjects b!"BI /W 1 ID abcd\nEI" = ([.image [(b!"W", .int 1)] b!"abcd"], none) ∧
    textOf plainHost [] b!"BI /W 1 ID abcd\nEI" = .ok (asc b!"\nBI\n/W 1 /Filter [ /ASCII85Decode  /None ]\nID\nVPa!s~>\nEI") := by decide +kernel

end PdfReader
