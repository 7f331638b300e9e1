/-
  Navigation and rendering of pages (C49, C52, C81).
-/
import Verif.Lemmas.Navigate
import Verif.Props.Viewer

namespace PdfReader

open Spec

/-! ### Samples -/

/-- A page with a content of its own. -/
def pageOf (s : Bytes) : PageInfo where
  host := plainHost
  resources := .ok sampleResources
  contents := .ok (.stream b!"Stream" [] s)

/-- Two pages. -/
def twoPages : DocPages := { pages := [pageOf b!"(one) Tj", pageOf b!"(two) Tj"] }

theorem twoPages_first : PageIs twoPages 1 (pageOf b!"(one) Tj") ∧ PageReads (pageOf b!"(one) Tj") sampleResources b!"(one) Tj" :=
  ⟨⟨0, rfl, rfl⟩, rfl, _, rfl, .one _ _ _ _ rfl⟩

theorem twoPages_open : ∃ v, openViewer twoPages = .ok v := ⟨_, rfl⟩

/-- Some calls, the number of the page and the strings of the canvas after them, and the last exception. -/
def runCalls (doc : DocPages) : List Call → Option Exc → Viewer → Option Exc × Int × List Text
  | [], e, v => (e, v.number, v.current.strings)
  | c :: cs, e, v =>
    match c.run doc v with
    | (.ok _, v) => runCalls doc cs e v
    | (.error x, v) => runCalls doc cs (some x) v

/-- The same for a document. -/
def runOn (doc : DocPages) (cs : List Call) : Option (Option Exc × Int × List Text) :=
  match openViewer doc with
  | .ok v => some (runCalls doc cs none v)
  | .error _ => none

/-! ### C49: navigation -/

/-- After any history, navigate(n) with a page n which can be read moves there: its number, its resources and content, an empty canvas and a fresh
graphics state. -/
theorem C49_reaches (doc : DocPages) (v : Viewer) (hv : Reached doc v) (n : Int) (pg : PageInfo) (hp : PageIs doc n pg) (r : Resources) (s : Bytes) (hr : PageReads pg r s) :
    ∃ v', Viewer.navigate doc n v = (.ok (), v') ∧ v'.number = n ∧ v'.res = r ∧ v'.stream = s ∧ v'.gss = [] ∧ v'.current = {} := by
  have hb := base_reached hv
  rcases navigate_cases hb.known n with ⟨q, k, hq, hk, ha, e⟩ | ⟨x, hx, _⟩
  · have := page_unique hp hq
    subst this
    rw [e, after_ok hr]
    exact ⟨_, rfl, rfl, rfl, rfl, rfl, current_set { v with known := k, number := n } hb.canvas {}⟩
  · rw [fetch_ok.mpr hp] at hx
    cases hx

/-- The first page on opening. -/
theorem C49_opens (doc : DocPages) (pg : PageInfo) (hp : PageIs doc 1 pg) (r : Resources) (s : Bytes) (hr : PageReads pg r s) :
    ∃ v, openViewer doc = .ok v ∧ v.number = 1 ∧ v.res = r ∧ v.stream = s ∧ v.gss = [] ∧ v.current = {} := by
  have : Viewer.navigate doc 1 { heap := [{}], canvas := 0, number := 1 } = (.ok (), ({ heap := [{}], canvas := 0, number := 1, known := [(1, pg)] } : Viewer).on r s) := by
    unfold Viewer.navigate
    dsimp only [assoc]
    rw [fetch_ok.mpr hp]
    exact after_ok hr _
  unfold openViewer
  rw [this]
  exact ⟨_, rfl, rfl, rfl, rfl, rfl, rfl⟩

/-- next and prev: the page with the number after, or before, the current one. -/
theorem C49_next (doc : DocPages) (v : Viewer) (hv : Reached doc v) (pg : PageInfo) (hp : PageIs doc (v.number + 1) pg) (r : Resources) (s : Bytes) (hr : PageReads pg r s) :
    ∃ v', Viewer.next doc v = (.ok (), v') ∧ v'.number = v.number + 1 ∧ v'.res = r ∧ v'.stream = s :=
  (C49_reaches doc v hv _ pg hp r s hr).imp fun _ h => ⟨h.1, h.2.1, h.2.2.1, h.2.2.2.1⟩

theorem C49_prev (doc : DocPages) (v : Viewer) (hv : Reached doc v) (pg : PageInfo) (hp : PageIs doc (v.number - 1) pg) (r : Resources) (s : Bytes) (hr : PageReads pg r s) :
    ∃ v', Viewer.prev doc v = (.ok (), v') ∧ v'.number = v.number - 1 ∧ v'.res = r ∧ v'.stream = s :=
  (C49_reaches doc v hv _ pg hp r s hr).imp fun _ h => ⟨h.1, h.2.1, h.2.2.1, h.2.2.2.1⟩

/-- After any history, navigate(n) past the last page raises PageDoesNotExist and changes nothing. -/
theorem C49_missing_partial (doc : DocPages) (v : Viewer) (hv : Reached doc v) (n : Int) (hn : NoPage doc n) : Viewer.navigate doc n v = (.error .pageDoesNotExist, v) := by
  rcases navigate_cases (base_reached hv).known n with ⟨q, _, hq, _⟩ | ⟨x, hx, e⟩
  · have := fetch_ok.mpr hq
    rw [fetch_none hn] at this
    cases this
  · rw [fetch_none hn] at hx
    cases hx
    exact e

/-- After any history, navigate(n) with n < 1 changes nothing, but the exception is ValueError. -/
theorem C49_below_counterexample (doc : DocPages) (v : Viewer) (hv : Reached doc v) (n : Int) (hn : n < 1) : Viewer.navigate doc n v = (.error .valueError, v) := by
  have hf : fetchPage doc n = .error .valueError := if_pos hn
  rcases navigate_cases (base_reached hv).known n with ⟨q, _, hq, _⟩ | ⟨x, hx, e⟩
  · have := fetch_ok.mpr hq
    rw [hf] at this
    cases this
  · rw [hf] at hx
    cases hx
    exact e

/-- prev() on the first page: the documented exception is PageDoesNotExist. -/
theorem C49_prev_counterexample : runOn twoPages [.prev] = some (some .valueError, 1, []) := by decide +kernel

example : runOn twoPages [.next, .next] = some (some .pageDoesNotExist, 2, []) := by decide +kernel

/-- Contents are optional in PDF. A page without them raises TypeError, after the number of the page has changed; rendering then shows the
content of the page before, and keeps it for this number. -/
theorem C49_contents_counterexample :
    runOn { pages := [pageOf b!"(one) Tj", { pageOf [] with contents := .ok (.atom .null) }] } [.next] = some (some .typeError, 2, []) ∧
    runOn { pages := [pageOf b!"(one) Tj", { pageOf [] with contents := .ok (.atom .null) }] } [.next, .render] = some (some .typeError, 2, [asc b!"one"]) := by decide +kernel

/-! ### C52: rendering -/

/-- After any calls which returned, render() on a page gives the canvas of this page rendered alone: neither its own earlier renderings nor those of
other pages matter. -/
theorem C52_alone_partial (doc : DocPages) (v v' : Viewer) (hv : Clean doc v) (e : v.render = (.ok (), v')) :
    ∃ pg, PageIs doc v.number pg ∧ v'.number = v.number ∧ Shown pg v'.current := by
  have hb := base_reached (clean_reached hv)
  have hf := fresh_clean hv
  obtain ⟨pg, hp, _⟩ := hf.reads
  obtain ⟨_, c, hs, hc⟩ := (fresh_render hb hf hp).1 v' () e
  have hn := render_number v
  rw [e] at hn
  exact ⟨pg, hp, hn, by rw [hc]; exact hs⟩

/-- If a page can be rendered alone, it can be rendered after any calls which returned. -/
theorem C52_succeeds_partial (doc : DocPages) (v : Viewer) (hv : Clean doc v) (pg : PageInfo) (hp : PageIs doc v.number pg) (c : Canvas) (hc : Shown pg c) :
    ∃ v', v.render = (.ok (), v') ∧ v'.current = c := by
  have hb := base_reached (clean_reached hv)
  have hf := fresh_clean hv
  obtain ⟨h1, h2⟩ := fresh_render hb hf hp
  obtain ⟨v', e⟩ := h2 c hc
  obtain ⟨_, c', hs, he⟩ := h1 v' () e
  exact ⟨v', e, by rw [he, shown_unique hs hc]⟩

/-- Rendering again, at once or after other calls which returned, gives the same canvas. -/
theorem C52_again_partial (doc : DocPages) (v w v' w' : Viewer) (hv : Clean doc v) (hw : Clean doc w) (hn : w.number = v.number) (e : v.render = (.ok (), v'))
    (e' : w.render = (.ok (), w')) : w'.current = v'.current := by
  obtain ⟨pg, hp, _, hs⟩ := C52_alone_partial doc v v' hv e
  obtain ⟨qg, hq, _, hs'⟩ := C52_alone_partial doc w w' hw e'
  rw [hn] at hq
  have := page_unique hp hq
  subst this
  exact shown_unique hs' hs

example : runOn twoPages [.render, .next, .render, .prev, .render, .render] = some (none, 1, [asc b!"one"]) := by decide +kernel

/-- After a rendering which raised an exception, rendering again goes on with the same canvas: strings are doubled. `Tf q w` has no operand for w. -/
theorem C52_failed_counterexample : runOn { pages := [pageOf b!"(one) Tj w"] } [.render, .render] = some (some .indexError, 1, [asc b!"one", asc b!"one"]) := by decide +kernel

/-- A canvas taken from the viewer is cleared by navigation, as it is the viewer's own. -/
theorem C52_held (doc : DocPages) (v : Viewer) (hv : Reached doc v) (n : Int) (pg : PageInfo) (hp : PageIs doc n pg) : (Viewer.navigate doc n v).2.heap[v.canvas]? = some {} := by
  have hb := base_reached hv
  rcases navigate_cases hb.known n with ⟨q, k, hq, hk, ha, e⟩ | ⟨x, hx, _⟩
  · rw [e, (after_frame q _).2.2.2.2]
    exact List.getElem?_set_self hb.canvas
  · rw [fetch_ok.mpr hp] at hx
    cases hx

/-- A canvas in the cache, or taken after rendering again, is not touched by later calls other than on itself. -/
theorem C52_cached (doc : DocPages) (v : Viewer) (hv : Reached doc v) (c : Call) (n : Int) (i : Nat) (hi : assoc n v.cache = some i) : (c.run doc v).2.heap[i]? = v.heap[i]? := by
  have hb := base_reached hv
  obtain ⟨hlt, hne⟩ := hb.cached n i hi
  have hl : Held v i (v.heap[i]) := ⟨List.getElem?_eq_getElem hlt, hne⟩
  have : Held (c.run doc v).2 i (v.heap[i]) := by
    cases c with
    | navigate n => exact held_navigate hb hl n
    | next => exact held_navigate hb hl _
    | prev => exact held_navigate hb hl _
    | render => exact held_render hl
  rw [this.1, hl.1]

/-! ### C81: iteration -/

/-- `for canvas in viewer`: from the current page to the last, one canvas for each page, that of the page; then the iteration ends, on the last page. The
canvases are the user's own: they are not that of the viewer. -/
theorem C81_iterates (doc : DocPages) (hd : doc.fails = none) (v : Viewer) (hv : Clean doc v) (k : Nat) (hk : v.number = (k : Int) + 1) (cs : List Canvas)
    (hs : AllShown (doc.pages.drop k) cs) (fuel : Nat) (hfuel : cs.length < fuel) :
    ∃ is v', canvasAll doc fuel (false, v) = (is, none, v') ∧ is.map (v'.heap[·]?) = cs.map some ∧ v'.number = doc.pages.length ∧ ∀ i ∈ is, i ≠ v'.canvas := by
  have hb := base_reached (clean_reached hv)
  have hf := fresh_clean hv
  obtain ⟨pg, ⟨k', hk', hp⟩, _⟩ := hf.reads
  have : k' = k := by omega
  subst this
  have hne : doc.pages.drop k' ≠ [] := by
    intro e
    have := congrArg (·[0]?) e
    simp [hp] at this
  obtain ⟨is, v', e, h1, h2, h3, _⟩ := iterate hd _ cs hs k' v fuel rfl hne hk hb hf hfuel
  exact ⟨is, v', e, h1, h2, h3⟩

/-- The canvases of the sample. -/
theorem twoPages_shown : ∃ cs, AllShown (twoPages.pages.drop 0) cs ∧ cs.map (·.strings) = [[asc b!"one"], [asc b!"two"]] := by
  have h1 : ∃ p, renderPage plainHost sampleResources b!"(one) Tj" {} = (.ok (), p) ∧ p.canvas.strings = [asc b!"one"] := ⟨_, by rfl, by rfl⟩
  have h2 : ∃ p, renderPage plainHost sampleResources b!"(two) Tj" {} = (.ok (), p) ∧ p.canvas.strings = [asc b!"two"] := ⟨_, by rfl, by rfl⟩
  obtain ⟨p1, e1, s1⟩ := h1
  obtain ⟨p2, e2, s2⟩ := h2
  exact ⟨[p1.canvas, p2.canvas], .cons _ _ _ _ ⟨_, _, p1, ⟨rfl, _, rfl, .one _ _ _ _ rfl⟩, e1, rfl⟩ (.cons _ _ _ _ ⟨_, _, p2, ⟨rfl, _, rfl, .one _ _ _ _ rfl⟩, e2, rfl⟩ .nil),
    by show [p1.canvas.strings, p2.canvas.strings] = _; rw [s1, s2]⟩

end PdfReader
