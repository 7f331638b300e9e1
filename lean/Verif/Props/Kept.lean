/-
  C121: what was shown before a failure in the content of a page.
-/
import Verif.Lemmas.Kept
import Verif.Props.Failing
import Verif.Props.Parts
import Verif.Props.Ignored

namespace PdfReader

open Spec

theorem owned_empty (res : Resources) : Owned res {} := fun _ _ h => by cases h

/-- Whatever the bytes of a content are, and whether painting fails or not: if some of the first commands can be painted, what they put on the canvas stays. -/
theorem C121_canvas_partial (h : Host) (res : Resources) (s : Bytes) (cs ds : List Content) (err : Option Exc) (hc : contentObjects s = (cs ++ ds, err))
    (hn1 : NoNavigate cs) (hn2 : NoNavigate ds) (p : Paint) (hp : notifyAll h res (onDoPage h res) resetPaint cs {} = (.ok (), p)) :
    Continues p.canvas (renderPage h res s {}).2.canvas := by
  have ho : Owned res p.canvas := by
    have := (adds_all h cs hn1 {} (owned_empty res)).1
    rw [hp] at this
    exact this
  have hd := (adds_all (res := res) h ds hn2 p ho).2
  unfold renderPage renderStream
  rw [hc]
  dsimp only
  have e := notifyAll_append_ok cs ds {} p hp
  unfold DM.bind
  rw [e]
  generalize notifyAll h res (onDoPage h res) resetPaint ds p = r at hd ⊢
  obtain ⟨r, q⟩ := r
  cases r with
  | error x => exact hd
  | ok u => cases err <;> exact hd

/-- The commands at the beginning of a content are read, whatever bytes come after them. -/
theorem C121_commands_partial (cs : List Content) (a x : Bytes) (h : PartText [] cs [] a) : contentObjects (a ++ x) = (cs ++ (contentObjects x).1, (contentObjects x).2) :=
  part_then h x fun h => h rfl

/-- Rendering: the canvas has the strings and inline images of the commands at the beginning, in front of those of the rest. -/
theorem C121_strings_partial (h : Host) (res : Resources) (hn : Named res) (a x : Bytes) (cs : List Content) (ha : PartText [] cs [] a) (ts : List Text) (fs' : List (Option Bytes))
    (hs : Shows (decoding h.decode res) (PlainDo h res) (PlainGs h res) [none] cs fs' ts) (hx : NoNavigate (contentObjects x).1) :
    (∃ more, (renderPage h res (a ++ x) {}).2.canvas.strings = ts ++ more) ∧ ∃ more, (renderPage h res (a ++ x) {}).2.canvas.inline = imagesOf cs ++ more := by
  obtain ⟨p, e, _, st, im⟩ := shows_puts (h := h) hn (onDo := onDoPage h res) (onNav := resetPaint) (fun f fs args hd => leaves_do hn f (f :: fs) args hd) (goes_gs hn) hs {}
    (paint_init res)
  have hc := C121_canvas_partial h res (a ++ x) cs (contentObjects x).1 (contentObjects x).2 (C121_commands_partial cs a x ha) (fun args hm => shows_no_navigate hs args hm) hx p e
  refine ⟨?_, ?_⟩
  · obtain ⟨m, hm⟩ := hc.strings
    exact ⟨m, by rw [hm, st]; rfl⟩
  · obtain ⟨m, hm⟩ := hc.inline
    exact ⟨m, by rw [hm, im]; rfl⟩

/-- After any calls which returned, moving to such a page and rendering it, whether that raises an exception or not: the canvas of the viewer has the strings and inline images
of the commands at the beginning. -/
theorem C121_shown_partial (doc : DocPages) (v : Viewer) (hv : Clean doc v) (n : Int) (pg : PageInfo) (hp : PageIs doc n pg) (r : Resources) (a x : Bytes) (hr : PageReads pg r (a ++ x))
    (hn : Named r) (cs : List Content) (ha : PartText [] cs [] a) (ts : List Text) (fs' : List (Option Bytes))
    (hs : Shows (decoding pg.host.decode r) (PlainDo pg.host r) (PlainGs pg.host r) [none] cs fs' ts) (hx : NoNavigate (contentObjects x).1) :
    ∃ w result u, Viewer.navigate doc n v = (.ok (), w) ∧ w.render = (result, u) ∧ (∃ more, u.current.strings = ts ++ more) ∧ ∃ more, u.current.inline = imagesOf cs ++ more := by
  obtain ⟨w, e, hnum, _⟩ := C49_reaches doc v (clean_reached hv) n pg hp r _ hr
  have hw : Clean doc w := .called (.navigate n) v w hv e
  have hpw : PageIs doc w.number pg := by rw [hnum]; exact hp
  have key := C121_strings_partial pg.host r hn a x cs ha ts fs' hs hx
  generalize hq : renderPage pg.host r (a ++ x) {} = q at key
  obtain ⟨q, p⟩ := q
  cases q with
  | ok t =>
    obtain ⟨u, e1, e2⟩ := C52_succeeds_partial doc w hw pg hpw p.canvas ⟨r, _, p, hr, hq, rfl⟩
    exact ⟨w, .ok (), u, e, e1, by rw [e2]; exact key.1, by rw [e2]; exact key.2⟩
  | error t =>
    obtain ⟨u, e1, e2, _⟩ := render_fails (base_reached (clean_reached hw)) (fresh_clean hw) hpw hr hq
    exact ⟨w, .error t, u, e, e1, by rw [e2]; exact key.1, by rw [e2]; exact key.2⟩

/-- The word `navigate` in the content empties the canvas. -/
theorem C121_navigate_counterexample : viewOf b!"(a) Tj " = .ok ([asc b!"a"], 0) ∧ viewOf b!"(a) Tj navigate" = .ok ([], 0) := by decide +kernel

/-- A string, and then a command without its operand, a dictionary which does not end, or a string which does not end. -/
example : runOn { pages := [pageOf b!"(a) Tj w (b) Tj"] } [.render] = some (some .indexError, 1, [asc b!"a"]) ∧
    runOn { pages := [pageOf b!"(a) Tj /F << (b) Tj"] } [.render] = some (some .parser, 1, [asc b!"a"]) ∧
    runOn { pages := [pageOf b!"(a) Tj (b) Tj (c"] } [.render] = some (some .typeError, 1, [asc b!"a", asc b!"b"]) := by decide +kernel

/-- `(a) Tj ` is such a beginning. -/
theorem shown_part : PartText [] [.op b!"Tj" [.str b!"a"]] [] b!"(a) Tj " := by
  have sa : Den false (.obj (.str b!"a")) b!"(a)" := .str b!"a" b!"a" (.plain 97 [] [] (by decide) (by decide) (by decide) (by decide) .nil)
  have ns : ∀ c : Byte, isRegular c = true → ¬ SepChar c := by
    intro c hc
    rw [← regular_iff] at hc
    rintro (h | rfl)
    · exact hc.1 h
    · exact hc.2 (by simp [Delim])
  refine .operand [] _ _ [] (.str b!"a") b!"(a)" [32] 84 b!"j " .nil sa sep_blank (ns _ rfl) (fun _ => ended_blank _) (by rintro ⟨d, h⟩; cases h) ?_
  exact .op _ [] _ [32] b!"Tj" [32] sep_blank (op_text (by decide)) (ended_blank _) (.done _ _ sep_blank)

/-- So the string is shown whatever comes after it. -/
example (x : Bytes) (hx : NoNavigate (contentObjects x).1) : ∃ more, (renderPage plainHost [] (b!"(a) Tj " ++ x) {}).2.canvas.strings = asc b!"a" :: more :=
  (C121_strings_partial plainHost [] (fun _ _ _ h => by cases h) b!"(a) Tj " x _ shown_part [asc b!"a"] [none]
    (.one b!"Tj" _ _ _ _ _ _ _ (.inl rfl) (by decide +kernel) (.nil _)) hx).1

example : NoNavigate (contentObjects b!"w /F << (b").1 := by
  intro a h
  rw [show (contentObjects b!"w /F << (b").1 = [.op b!"w" []] by decide +kernel, List.mem_singleton] at h
  cases h

end PdfReader
