/-
  The viewer (C49-C53, C80-).
-/
import Verif.Lemmas.Painted

namespace PdfReader

open Spec

/-! ### Samples -/

/-- A document which hands out what it is given: fonts decode as Latin-1, with an `x` in front. -/
def plainHost : Host where
  decode _ o := (decodeDefault o).map fun t => 120 :: t
  items es := .ok (es.map fun e => (e.1, .atom e.2))
  data v := match v with | .stream _ _ d => .ok d | _ => .error .attributeError
  formResources _ := .ok []

/-- Resources with a font F1, an image, and forms. -/
def sampleResources : Resources :=
  [(b!"Font", .named [(b!"F1", .dict b!"Font" [(b!"Type", .name b!"Font")])]),
   (b!"XObject", .named [(b!"Im", .stream b!"Image" [(b!"Width", .int 1)] b!"z"), (b!"Fm", .stream b!"Form" [(b!"Type", .name b!"XObject")] b!"q (in) Tj Q"),
     (b!"Bad", .stream b!"Form" [(b!"Type", .name b!"XObject")] b!"Q Q"), (b!"Leak", .stream b!"Form" [(b!"Type", .name b!"XObject")] b!"/F1 5 Tf q")])]

/-! ### C50: balanced q and Q -/

/-- Content between q and Q, balanced itself, leaves the graphics state stack as it was; an empty stack counts as one with a fresh state. -/
theorem C50_group_partial (h : Host) (res : Resources) (hf : FormsBalanced h res) (a b : List Obj) (cs : List Content) (hb : Balanced cs)
    (hn : ∀ args, .op b!"navigate" args ∉ cs) (p p' : Paint)
    (e : notifyAll h res (onDoPage h res) resetPaint (.op b!"q" a :: (cs ++ [.op b!"Q" b])) p = (.ok (), p')) :
    p'.gss = if p.gss = [] then [[]] else p.gss :=
  notifyGroup h res _ _ a b cs (below_balanced h res _ (below_onDoPage h res hf) _ hb fun args hm => absurd hm (hn args)) p p' () e

/-- Balanced content changes the current state only, never those below. -/
theorem C50_below_partial (h : Host) (res : Resources) (hf : FormsBalanced h res) (cs : List Content) (hb : Balanced cs)
    (hn : ∀ args, .op b!"navigate" args ∉ cs) (g : GState) (gs : List GState) (p p' : Paint) (hp : p.gss = g :: gs)
    (e : notifyAll h res (onDoPage h res) resetPaint cs p = (.ok (), p')) : ∃ g', p'.gss = g' :: gs := by
  have := below_balanced h res _ (below_onDoPage h res hf) _ hb (fun args hm => absurd hm (hn args)) p () p' e
  have hne : p'.gss ≠ [] := this.1 (by rw [hp]; simp)
  have ht := this.2
  rw [ensure_of_ne hne, hp, ensure_of_ne (by simp)] at ht
  cases hg : p'.gss with
  | nil => exact absurd hg hne
  | cons g' gs' => rw [hg] at ht; exact ⟨g', by rw [show gs' = gs from ht]⟩

/-- The forms of a page, painted alone. -/
example : FormsBalanced plainHost [(b!"XObject", .named [(b!"Fm", .stream b!"Form" [] b!"q (in) Tj Q")])] := by
  intro name es d s h e
  have : d = b!"q (in) Tj Q" := by
    unfold resource at h
    simp only [assoc] at h
    by_cases hx : b!"Fm" = name
    · simp [hx, assoc] at h; exact h.2.symm
    · simp [hx, assoc] at h
  subst this
  cases e
  exact .group [] [] [.op b!"Tj" [.str b!"in"]] (.op _ _ (by decide) (by decide))

/-- The stack after some content, or the exception. -/
def stackAfter (h : Host) (res : Resources) (s : Bytes) (gss : List GState) : Res (List GState) :=
  match renderPage h res s { gss := gss } with
  | (.ok _, p) => .ok p.gss
  | (.error e, _) => .error e

/-- `q Q` within two states: both are still there. -/
example : stackAfter plainHost sampleResources b!"q 5 w q /F1 9 Tf Q Q" [[(b!"LW", .atom (.int 1))], []] = .ok [[(b!"LW", .atom (.int 1))], []] := by decide +kernel

/-- An operator named `navigate` clears the stack, as its name is that of an internal handler: balanced content loses the states. -/
theorem C50_navigate_counterexample : Balanced (contentObjects b!"q navigate Q").1 ∧ stackAfter plainHost [] b!"q navigate Q" [[(b!"LW", .atom (.int 1))], []] = .ok [] :=
  ⟨.group [] [] [.op b!"navigate" []] (.op _ _ (by decide) (by decide)), by decide +kernel⟩

/-- A Q too many empties the stack; the next operator starts from a fresh state: the line width is gone. -/
theorem C50_excess (h : Host) (res : Resources) (onDo : List Obj → DM Paint Unit) (onNav : DM Paint Unit) (args : List Obj) (p p' : Paint) (g : GState) (hp : p.gss = [g])
    (e : notifyOp h res onDo onNav b!"Q" args p = (.ok (), p')) : p'.gss = [] := by
  obtain ⟨_, t1, f1, f2⟩ := DM.bind_ok e
  cases f1
  obtain ⟨_, t2, f3, f4⟩ := DM.bind_ok f2
  obtain ⟨_, t3, f5, f6⟩ := DM.bind_ok f4
  cases f5
  obtain ⟨_, t4, f7, f8⟩ := DM.bind_ok (show keep args restoreState p = _ from f3)
  cases f8
  cases f7
  unfold addText at f6
  split at f6
  · cases f6
  · cases f6
    show p.gss.tail = []
    rw [hp]
    rfl

/-! ### C51: forms and the graphics state -/

/-- Do with anything, also with a form whose content is balanced: the stack is the same afterwards. -/
theorem C51_form_partial (h : Host) (res : Resources) (hf : FormsBalanced h res) (args : List Obj) (p p' : Paint)
    (e : notifyOp h res (onDoPage h res) resetPaint b!"Do" args p = (.ok (), p')) : p'.gss = if p.gss = [] then [[]] else p.gss :=
  notifyDo h res _ (below_onDoPage h res hf) _ args p p' () e

/-- A form with a Q too many removes states of the page. -/
theorem C51_excess_counterexample : stackAfter plainHost sampleResources b!"/Bad Do" [[(b!"LW", .atom (.int 1))], [(b!"LW", .atom (.int 2))]] = .ok [] := by decide +kernel

/-- A form with a q too many leaves its font to the page. -/
theorem C51_leak_counterexample : stackAfter plainHost sampleResources b!"/Leak Do" [[]] = .ok [[(b!"Font", .atom (.arr [.name b!"F1", .int 5]))], []] := by decide +kernel

/-! ### C53: strings -/

/-- Content which shows strings: rendering succeeds, the canvas has these strings in their order, and the inline images of the content. -/
theorem C53_strings_partial (h : Host) (res : Resources) (hn : Named res) (s : Bytes) (cs : List Content) (hc : contentObjects s = (cs, none)) (ts : List Text)
    (fs' : List (Option Bytes)) (hs : Shows (decoding h.decode res) (PlainDo h res) (PlainGs h res) [none] cs fs' ts) :
    ∃ p, renderPage h res s {} = (.ok (), p) ∧ p.canvas.strings = ts ∧ p.canvas.inline = imagesOf cs := by
  obtain ⟨p, e, _, st, im⟩ := shows_puts (h := h) hn (onDo := onDoPage h res) (onNav := resetPaint) (fun f fs args hd => leaves_do hn f (f :: fs) args hd) (goes_gs hn) hs {}
    (paint_init res)
  refine ⟨p, ?_, st, im⟩
  unfold renderPage renderStream
  rw [hc]
  dsimp only
  rw [DM.bind_eq e]
  rfl

/-- The strings of a form are on a canvas of its own under its name, decoded with the fonts of the form, starting with the font in force where it
is painted first; those of the page are as if the form were empty. -/
theorem C53_form_partial (h : Host) (res : Resources) (hn : Named res) (s : Bytes) (cs ds : List Content) (n : Bytes) (rest : List Obj)
    (hc : contentObjects s = (cs ++ .op b!"Do" (.name n :: rest) :: ds, none)) (hrest : ∀ o ∈ rest, Plain o) (f : Option Bytes) (fs fs' : List (Option Bytes)) (ts us vs : List Text)
    (h1 : Shows (decoding h.decode res) (PlainDo h res) (PlainGs h res) [none] cs (f :: fs) ts)
    (h2 : Shows (decoding h.decode res) (PlainDo h res) (PlainGs h res) (f :: fs) ds fs' vs) (hfirst : ¬ Paints cs n)
    (es : List (Bytes × Obj)) (d : Bytes) (hr : resource res b!"XObject" n = some (.stream b!"Form" es d)) (hd : d ≠ []) (hf : FormShows h (.stream b!"Form" es d) f us) :
    ∃ p c, renderPage h res s {} = (.ok (), p) ∧ p.canvas.strings = ts ++ vs ∧ assoc n p.canvas.forms = some c ∧ c.strings = us := by
  have run := fun {fs cs fs' ts} hs => shows_puts (h := h) (cs := cs) (fs := fs) (fs' := fs') (ts := ts) hn (onDo := onDoPage h res) (onNav := resetPaint)
    (fun f fs args hd => leaves_do hn f (f :: fs) args hd) (goes_gs hn) hs
  obtain ⟨p1, e1, i1, s1, _⟩ := run h1 {} (paint_init res)
  have hp1 := painted_all cs (fun _ => False) {} p1 () (shows_no_navigate h1) (painted_nothing res) e1
  have hnew : assoc n p1.canvas.forms = none := by
    cases ha : assoc n p1.canvas.forms with
    | none => rfl
    | some c =>
      have := (hp1.forms n).mp (by rw [ha]; rfl)
      rcases this.1 with h | h
      · exact h.elim
      · exact absurd h hfirst
  obtain ⟨p2, c, e2, i2, hc2, hcs, s2⟩ := do_form (onNav := resetPaint) hn hr hd hf hrest i1 hnew
  obtain ⟨p3, e3, _, s3, _⟩ := run h2 p2 i2
  refine ⟨p3, c, ?_, ?_, forms_stay ds p2 p3 () n c (shows_no_navigate h2) hc2 e3, hcs⟩
  · unfold renderPage renderStream
    rw [hc]
    dsimp only
    have : notifyAll h res (onDoPage h res) resetPaint (cs ++ .op b!"Do" (.name n :: rest) :: ds) {} = (.ok (), p3) := by
      rw [notifyAll_append_ok _ _ _ _ e1]
      show ((notifyOp h res (onDoPage h res) resetPaint b!"Do" (.name n :: rest)).bind fun _ => notifyAll h res (onDoPage h res) resetPaint ds) p1 = _
      rw [DM.bind_eq e2]
      exact e3
    rw [DM.bind_eq this]
    rfl
  · rw [s3, s2, s1]
    rfl

/-- The strings of a page, or the exception. -/
def stringsOf (h : Host) (res : Resources) (s : Bytes) : Res (List Text) :=
  match renderPage h res s {} with
  | (.ok _, p) => .ok p.canvas.strings
  | (.error e, _) => .error e

/-- The sample page shows strings without a font, with one, from an array, and again without it after Q. -/
theorem sample_shows : contentObjects b!"q (a) Tj /F1 9 Tf [(b) 3 <63>] TJ Q (d) ' /Im Do" =
      ([.op b!"q" [], .op b!"Tj" [.str b!"a"], .op b!"Tf" [.name b!"F1", .int 9], .op b!"TJ" [.arr [.str b!"b", .int 3, .hex b!"63"]], .op b!"Q" [], .op b!"'" [.str b!"d"],
        .op b!"Do" [.name b!"Im"]], none) ∧
    Shows (decoding plainHost.decode sampleResources) (PlainDo plainHost sampleResources) (PlainGs plainHost sampleResources) [none]
      [.op b!"q" [], .op b!"Tj" [.str b!"a"], .op b!"Tf" [.name b!"F1", .int 9], .op b!"TJ" [.arr [.str b!"b", .int 3, .hex b!"63"]], .op b!"Q" [], .op b!"'" [.str b!"d"],
        .op b!"Do" [.name b!"Im"]] [none] [asc b!"a", asc b!"xb", asc b!"xc", asc b!"d"] := by
  refine ⟨by decide +kernel, ?_⟩
  refine .save _ _ _ _ _ _ (fun o h => by cases h) ?_
  refine .one b!"Tj" _ _ _ _ _ _ _ (.inl rfl) (by decide +kernel) ?_
  refine .font _ _ _ _ _ _ _ (.int 9) ?_
  refine .many _ [asc b!"xb", asc b!"xc"] _ _ _ _ _ ?_ ?_ ?_
  · intro x hx
    simp only [List.mem_cons, List.not_mem_nil, or_false] at hx
    rcases hx with rfl | rfl | rfl
    · exact .str _
    · exact .int 3
    · exact .hex _
  · exact .string _ _ _ _ (.inl ⟨_, rfl⟩) (by decide +kernel) (.other _ _ _ (fun _ h => by cases h) (fun _ h => by cases h) (.string _ _ _ _ (.inr ⟨_, rfl⟩) (by decide +kernel) .nil))
  refine .restore _ _ _ _ _ _ _ (fun o h => by cases h) ?_
  refine .one b!"'" _ _ _ _ _ _ _ (.inr rfl) (by decide +kernel) ?_
  refine .xobject _ _ _ _ _ _ ?_ ⟨b!"Im", [], rfl, ?_⟩ (.nil _)
  · intro o ho
    rw [List.mem_singleton] at ho
    subst ho
    exact .name _
  · intro es d h
    have hr : resource sampleResources b!"XObject" b!"Im" = some (.stream b!"Image" [(b!"Width", .int 1)] b!"z") := by decide +kernel
    rw [hr] at h
    cases h

/-- The operator `"` takes numbers first: the code takes its first operand for an array and raises TypeError. -/
theorem C53_quotation_counterexample : contentObjects b!"1 2 (a) \"" = ([.op b!"\"" [.int 1, .int 2, .str b!"a"]], none) ∧
    stringsOf plainHost [] b!"1 2 (a) \"" = .error .typeError := by decide +kernel

/-- The strings of a page, and the names, strings and names of forms of its forms. -/
def formStrings (h : Host) (res : Resources) (s : Bytes) : Option (List Text × List Bytes × List (List Text) × List (List Bytes)) :=
  match renderPage h res s {} with
  | (.ok _, p) => some (p.canvas.strings, p.canvas.forms.map (·.1), p.canvas.forms.map fun e => e.2.strings, p.canvas.forms.map fun e => e.2.forms.map (·.1))
  | (.error _, _) => none

/-- The form `Out` paints `In`. -/
def nestedResources : Resources := [(b!"XObject", .named [(b!"Out", .stream b!"Form" [] b!"/In Do"), (b!"In", .stream b!"Form" [] b!"(x) Tj")])]

set_option synthInstance.maxSize 2000 in
/-- In forms, forms are not painted: their strings are nowhere. -/
theorem C53_nested_counterexample :
    formStrings { plainHost with formResources := fun _ => .ok nestedResources } nestedResources b!"/Out Do" = some ([], [b!"Out"], [[]], [[]]) ∧
    formStrings { plainHost with formResources := fun _ => .ok nestedResources } nestedResources b!"/In Do" = some ([], [b!"In"], [[asc b!"x"]], [[]]) := by decide +kernel

/-! ### C80: images and forms of a canvas -/

/-- After rendering, the canvas has exactly the images painted by Do, under their names, and a canvas for exactly the forms painted. An XObject
without data counts as missing. -/
theorem C80_painted_partial (h : Host) (res : Resources) (s : Bytes) (cs : List Content) (hc : contentObjects s = (cs, none)) (hn : ∀ args, .op b!"navigate" args ∉ cs) (p : Paint)
    (e : renderPage h res s {} = (.ok (), p)) :
    (∀ n x, assoc n p.canvas.images = some x ↔ Paints cs n ∧ resource res b!"XObject" n = some x ∧ ∃ es d, x = .stream b!"Image" es d ∧ d ≠ []) ∧
    (∀ n, (∃ c, assoc n p.canvas.forms = some c) ↔ Paints cs n ∧ ∃ es d, resource res b!"XObject" n = some (.stream b!"Form" es d) ∧ d ≠ []) := by
  unfold renderPage renderStream at e
  rw [hc] at e
  obtain ⟨_, s1, e1, e2⟩ := DM.bind_ok e
  replace e2 : DM.pure (.ok ()) s1 = (.ok (), p) := e2
  cases e2
  have hp := painted_all cs (fun _ => False) {} p () hn (painted_nothing res) e1
  refine ⟨fun n x => ?_, fun n => ?_⟩
  · rw [hp.images]
    simp
  · rw [← Option.isSome_iff_exists, hp.forms]
    simp

set_option synthInstance.maxSize 2000 in
example : formStrings plainHost sampleResources b!"(a) Tj /Fm Do /Fm Do" = some ([asc b!"a"], [b!"Fm"], [[asc b!"in"]], [[]]) := by decide +kernel

/-- An image without data is not on the canvas. -/
theorem C80_empty_counterexample :
    (match renderPage plainHost [(b!"XObject", .named [(b!"Im", .stream b!"Image" [(b!"Width", .int 0)] [])])] b!"/Im Do" {} with
     | (.ok _, p) => some (p.canvas.images.length)
     | (.error _, _) => none) = some 0 := by decide +kernel

end PdfReader
