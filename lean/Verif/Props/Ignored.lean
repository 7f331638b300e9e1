/-
  C105: commands which mean nothing to the viewer.
-/
import Verif.Lemmas.Ignored
import Verif.Props.Viewer

namespace PdfReader

open Spec

/-- What a user finds after rendering a content, but for `text_content`: an exception or none; strings, images, forms and inline images on the canvas; the graphics
states; the open brackets. -/
structure SameView (r r' : Res Unit × Paint) : Prop where
  outcome : r.1 = r'.1
  strings : r.2.canvas.strings = r'.2.canvas.strings
  images : r.2.canvas.images = r'.2.canvas.images
  forms : r.2.canvas.forms = r'.2.canvas.forms
  inline : r.2.canvas.inline = r'.2.canvas.inline
  states : r.2.gss = r'.2.gss
  brackets : r.2.brackets = r'.2.brackets

theorem sameView_retext {r : Res Unit} {p : Paint} (t : Text) : SameView (r, p.retext t) (r, p) := ⟨rfl, rfl, rfl, rfl, rfl, rfl, rfl⟩

/-- Two contents which differ in commands only whose operators the viewer does not interpret: rendering them has the same outcome, also if that is an exception, and
but for `text_content` leaves the same canvas. The operators are any words but those of `clashing`. -/
theorem C105_ignored_partial (h : Host) (res : Resources) (s s' : Bytes) (cs cs' : List Content) (e : Option Exc) (hc : contentObjects s = (cs, e))
    (hc' : contentObjects s' = (cs', e)) (hw : Without (interpreted ++ clashing) cs cs') (p : Paint) : SameView (renderPage h res s p) (renderPage h res s' p) := by
  obtain ⟨t, ht⟩ := without_same h res hw p p.canvas.text
  rw [show p.retext p.canvas.text = p by obtain ⟨_, ⟨_, _, _, _, _⟩, _, _⟩ := p; rfl] at ht
  unfold renderPage renderStream
  rw [hc, hc']
  unfold DM.bind
  rw [ht]
  generalize notifyAll h res (onDoPage h res) resetPaint cs' p = r
  obtain ⟨r, p1⟩ := r
  cases r with
  | error x => exact sameView_retext t
  | ok u =>
    cases e with
    | none => exact sameView_retext t
    | some x => exact sameView_retext t

/-- No operator of PDF is one of the words excepted: what is not interpreted can be left out. -/
theorem C105_standard : ∀ w ∈ operators, w ∉ clashing := by decide +kernel

/-- Paths, colours, text positions, and a word of no meaning at all. -/
theorem ignored_sample : contentObjects b!"q 1 0 0 rg 0 0 5 5 re f /F1 9 Tf 3 Tc 1 2 Td (a) Tj foo T* (b) ' /Im Do Q" =
    ([.op b!"q" [], .op b!"rg" [.int 1, .int 0, .int 0], .op b!"re" [.int 0, .int 0, .int 5, .int 5], .op b!"f" [], .op b!"Tf" [.name b!"F1", .int 9],
      .op b!"Tc" [.int 3], .op b!"Td" [.int 1, .int 2], .op b!"Tj" [.str b!"a"], .op b!"foo" [], .op b!"T*" [], .op b!"'" [.str b!"b"], .op b!"Do" [.name b!"Im"],
      .op b!"Q" []], none) ∧
    contentObjects b!"q /F1 9 Tf (a) Tj (b) ' /Im Do Q" =
      ([.op b!"q" [], .op b!"Tf" [.name b!"F1", .int 9], .op b!"Tj" [.str b!"a"], .op b!"'" [.str b!"b"], .op b!"Do" [.name b!"Im"], .op b!"Q" []], none) :=
  ⟨by decide +kernel, by decide +kernel⟩

theorem ints_plain (ns : List Int) : ∀ o ∈ ns.map Obj.int, Plain o := by
  intro o h
  obtain ⟨n, _, rfl⟩ := List.mem_map.mp h
  exact .int n

example : SameView (renderPage plainHost sampleResources b!"q 1 0 0 rg 0 0 5 5 re f /F1 9 Tf 3 Tc 1 2 Td (a) Tj foo T* (b) ' /Im Do Q" {})
    (renderPage plainHost sampleResources b!"q /F1 9 Tf (a) Tj (b) ' /Im Do Q" {}) := by
  refine C105_ignored_partial _ _ _ _ _ _ _ ignored_sample.1 ignored_sample.2 ?_ {}
  refine .kept _ _ _ (.left _ _ _ _ (by decide) (ints_plain [1, 0, 0]) (.left _ _ _ _ (by decide) (ints_plain [0, 0, 5, 5]) (.left _ _ _ _ (by decide) (ints_plain []) (.kept _ _ _ ?_))))
  refine .left _ _ _ _ (by decide) (ints_plain [3]) (.left _ _ _ _ (by decide) (ints_plain [1, 2]) (.kept _ _ _ ?_))
  exact .left _ _ _ _ (by decide) (ints_plain []) (.left _ _ _ _ (by decide) (ints_plain []) (.kept _ _ _ (.kept _ _ _ (.kept _ _ _ .nil))))

/-- Strings, inline images and exception of a content. -/
def viewOf (s : Bytes) : Res (List Text × Nat) :=
  match renderPage plainHost [] s {} with
  | (.error e, _) => .error e
  | (.ok _, p) => .ok (p.canvas.strings, p.canvas.inline.length)

/-- The words excepted have no meaning in PDF, and change what is seen: `navigate` removes the strings shown so far; `document_load` ends the rendering with a
TypeError; `inline_image` makes an inline image; `apostrophe` shows its operand, and `quotation` the strings of its array. -/
theorem C105_names_counterexample :
    viewOf b!"(a) Tj" = .ok ([asc b!"a"], 0) ∧ viewOf b!"(a) Tj navigate" = .ok ([], 0) ∧ viewOf b!"(a) Tj document_load" = .error .typeError ∧
    viewOf b!"(a) Tj inline_image" = .ok ([asc b!"a"], 1) ∧ viewOf b!"(a) Tj (b) apostrophe" = .ok ([asc b!"a", asc b!"b"], 0) ∧
    viewOf b!"(a) Tj [(b)] quotation" = .ok ([asc b!"a", asc b!"b"], 0) := by
  refine ⟨by decide +kernel, by decide +kernel, by decide +kernel, by decide +kernel, by decide +kernel, by decide +kernel⟩

end PdfReader
