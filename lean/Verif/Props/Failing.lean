/-
  C113: pages before a page which cannot be rendered.
-/
import Verif.Props.Navigate

namespace PdfReader

open Spec

/-- One step of the iteration, when the next page can be read. -/
theorem iterate_step {doc : DocPages} {pg pg2 : PageInfo} {c : Canvas} {r : Resources} {s : Bytes} {k : Nat} {v : Viewer} (hk : doc.pages[k]? = some pg)
    (hk2 : doc.pages[k + 1]? = some pg2) (hpc : Shown pg c) (hr : PageReads pg2 r s) (hnum : v.number = (k : Int) + 1) (hb : Base doc v) (hf : Fresh doc v) :
    ∃ i v3, canvasNext doc (false, v) = (.ok (some i), (false, v3)) ∧ v3.number = ((k + 1 : Nat) : Int) + 1 ∧ Base doc v3 ∧ Fresh doc v3 ∧ Held v3 i c ∧
      ∀ i c, Held v i c → Held v3 i c := by
  have hp : PageIs doc v.number pg := ⟨k, hnum, hk⟩
  obtain ⟨r1, r2⟩ := fresh_render hb hf hp
  obtain ⟨v1, e1⟩ := r2 c hpc
  obtain ⟨f1, c', hc', hcur⟩ := r1 v1 () e1
  have := shown_unique hc' hpc
  subst this
  have b1 : Base doc v1 := by have := base_render hb; rw [e1] at this; exact this
  have n1 : v1.number = v.number := by have := render_number v; rw [e1] at this; exact this
  have b2 := base_snapshot b1 v1.current
  have f2 := fresh_snapshot b1 f1 v1.current
  have h2 : Held { v1 with heap := v1.heap ++ [v1.current] } v1.heap.length c' := by
    refine ⟨?_, fun e => absurd b1.canvas (by rw [← show v1.heap.length = v1.canvas from e]; exact Nat.lt_irrefl _)⟩
    show (v1.heap ++ [v1.current])[v1.heap.length]? = _
    rw [List.getElem?_append_right (Nat.le_refl _), Nat.sub_self, hcur]
    rfl
  have hold : ∀ i c, Held v i c → Held { v1 with heap := v1.heap ++ [v1.current] } i c := by
    intro i c h
    have := held_render h
    rw [e1] at this
    exact held_snapshot this
  have hnav : Viewer.next doc { v1 with heap := v1.heap ++ [v1.current] } = Viewer.navigate doc (k + 1 + 1) { v1 with heap := v1.heap ++ [v1.current] } := by
    unfold Viewer.next
    rw [show ({ v1 with heap := v1.heap ++ [v1.current] } : Viewer).number = (k : Int) + 1 from n1.trans hnum]
  have hp2 : PageIs doc ((k : Int) + 1 + 1) pg2 := ⟨k + 1, by omega, hk2⟩
  obtain ⟨v3, hnx, hnum3⟩ : ∃ v3, Viewer.navigate doc ((k : Int) + 1 + 1) { v1 with heap := v1.heap ++ [v1.current] } = (.ok (), v3) ∧ v3.number = (k : Int) + 1 + 1 := by
    rcases navigate_cases b2.known ((k : Int) + 1 + 1) with ⟨q, kn, hq, _, _, e⟩ | ⟨x, hx, _⟩
    · have := page_unique hp2 hq
      subst this
      rw [e, after_ok hr]
      exact ⟨_, rfl, rfl⟩
    · rw [fetch_ok.mpr hp2] at hx
      cases hx
  have b3 : Base doc v3 := by have := base_navigate b2 ((k : Int) + 1 + 1); rw [hnx] at this; exact this
  have f3 := fresh_navigate b2 f2 hnx
  have held3 : ∀ i c, Held { v1 with heap := v1.heap ++ [v1.current] } i c → Held v3 i c := by
    intro i c h
    have := held_navigate b2 h ((k : Int) + 1 + 1)
    rw [hnx] at this
    exact this
  refine ⟨v1.heap.length, v3, ?_, by rw [hnum3]; omega, b3, f3, held3 _ _ h2, fun i c h => held3 i c (hold i c h)⟩
  unfold canvasNext
  dsimp only
  rw [e1]
  dsimp only
  rw [hnav, hnx]
  rfl

/-- Rendering a page that fails, in a fresh state: the canvas has what was painted before. -/
theorem render_fails {doc : DocPages} {v : Viewer} (hb : Base doc v) (hf : Fresh doc v) {pg : PageInfo} (hp : PageIs doc v.number pg) {r : Resources} {s : Bytes} {e : Exc} {p : Paint}
    (hr : PageReads pg r s) (hx : renderPage pg.host r s {} = (.error e, p)) : ∃ v', v.render = (.error e, v') ∧ v'.current = p.canvas ∧
      ∀ i c, Held v i c → Held v' i c := by
  have hh : ∀ i c, Held v i c → Held v.render.2 i c := fun i c h => held_render h
  obtain ⟨pg', hp', hr'⟩ := hf.reads
  have := page_unique hp hp'
  subst this
  obtain ⟨h1, h2⟩ := reads_unique hr hr'
  rw [h1, h2] at hx
  have hk : assoc v.number v.known = some pg := by
    obtain ⟨q, hq⟩ := hb.current
    rw [hq, page_unique hp (hb.known _ _ hq)]
  have he : v.render = (.error e, { v with heap := v.heap.set v.canvas p.canvas, gss := p.gss, brackets := p.brackets, decoders := p.decoders }) := by
    unfold Viewer.render
    cases hc : assoc v.number v.cache with
    | some i =>
      obtain ⟨q, c, h1, h2, h3⟩ := hf.cache _ i hc
      have := page_unique hp h1
      subst this
      obtain ⟨r', s', p', a', b', _⟩ := h2
      obtain ⟨rfl, rfl⟩ := reads_unique hr' a'
      rw [hx] at b'
      cases b'
    | none =>
      dsimp only
      obtain ⟨b1, b2, b3, b4⟩ := hf.blank hc
      rw [hk]
      dsimp only
      unfold Viewer.paint
      rw [b1, b2, b3, b4, hx]
  rw [he] at hh
  exact ⟨_, he, current_set v hb.canvas _, hh⟩

theorem iterate_fails {doc : DocPages} {bad : PageInfo} {r : Resources} {s : Bytes} {e : Exc} {p : Paint} (hr : PageReads bad r s) (hx : renderPage bad.host r s {} = (.error e, p)) :
    ∀ (pgs : List PageInfo) (cs : List Canvas), AllShown pgs cs → ∀ (rest : List PageInfo) (k : Nat) (v : Viewer) (fuel : Nat),
    doc.pages.drop k = pgs ++ bad :: rest → v.number = (k : Int) + 1 → Base doc v → Fresh doc v → cs.length < fuel →
    ∃ is v', canvasAll doc fuel (false, v) = (is, some e, v') ∧ is.map (v'.heap[·]?) = cs.map some ∧ v'.number = ((k + pgs.length : Nat) : Int) + 1 ∧
      v'.current = p.canvas ∧ (∀ i ∈ is, i ≠ v'.canvas) ∧ (∀ i c, Held v i c → Held v' i c) := by
  intro pgs cs hs
  induction hs with
  | nil =>
    intro rest k v fuel hd hn hb hf hfuel
    have hk : doc.pages[k]? = some bad := by
      have := congrArg (·[0]?) hd
      simpa using this
    obtain ⟨v', e1, e2, e3⟩ := render_fails hb hf ⟨k, hn, hk⟩ hr hx
    obtain ⟨fuel, rfl⟩ : ∃ m, fuel = m + 1 := ⟨fuel - 1, by omega⟩
    have n1 : v'.number = v.number := by have := render_number v; rw [e1] at this; exact this
    refine ⟨[], v', ?_, rfl, by rw [n1, hn]; rfl, e2, fun i hi => (by cases hi), e3⟩
    unfold canvasAll canvasNext
    dsimp only
    rw [e1]
    rfl
  | cons pg c pgs cs hpc hall ih =>
    intro rest k v fuel hd hn hb hf hfuel
    have hk : doc.pages[k]? = some pg := by
      have := congrArg (·[0]?) hd
      simpa using this
    have hd' : doc.pages.drop (k + 1) = pgs ++ bad :: rest := by
      rw [← List.drop_drop, hd]
      rfl
    obtain ⟨pg2, r2, s2, hk2, hr2⟩ : ∃ pg2 r2 s2, doc.pages[k + 1]? = some pg2 ∧ PageReads pg2 r2 s2 := by
      have h0 := congrArg (·[0]?) hd'
      cases hall with
      | nil => exact ⟨bad, r, s, by simpa using h0, hr⟩
      | cons pg2 c2 pgs cs h2 _ =>
        obtain ⟨r2, s2, _, hr2, _⟩ := h2
        exact ⟨pg2, r2, s2, by simpa using h0, hr2⟩
    obtain ⟨i, v3, hstep, n3, b3, f3, hi, held⟩ := iterate_step hk hk2 hpc hr2 hn hb hf
    obtain ⟨fuel, rfl⟩ : ∃ m, fuel = m + 1 := ⟨fuel - 1, by omega⟩
    obtain ⟨is, v', e', m', nn, cur, ne, hh⟩ := ih rest (k + 1) v3 fuel hd' n3 b3 f3 (by simp at hfuel; omega)
    have hlast := hh _ _ hi
    refine ⟨i :: is, v', ?_, ?_, ?_, cur, ?_, fun i c h => hh i c (held i c h)⟩
    · unfold canvasAll
      rw [hstep]
      dsimp only
      rw [e']
    · show v'.heap[i]? :: _ = _
      rw [m', hlast.1]
      rfl
    · rw [nn, List.length_cons]
      omega
    · intro j hj
      rcases List.mem_cons.mp hj with rfl | hj
      · exact hlast.2
      · exact ne j hj

/-- C113: a page whose rendering fails costs none of the pages before it: the iteration gives their canvases, and then the exception of that page; the viewer is on
this page, and its canvas has what was painted until then. -/
theorem C113_before_partial (doc : DocPages) (v : Viewer) (hv : Clean doc v) (k : Nat) (hk : v.number = (k : Int) + 1) (pgs rest : List PageInfo) (bad : PageInfo)
    (hd : doc.pages.drop k = pgs ++ bad :: rest) (cs : List Canvas) (hs : AllShown pgs cs) (r : Resources) (s : Bytes) (e : Exc) (p : Paint) (hr : PageReads bad r s)
    (hx : renderPage bad.host r s {} = (.error e, p)) (fuel : Nat) (hfuel : cs.length < fuel) :
    ∃ is v', canvasAll doc fuel (false, v) = (is, some e, v') ∧ is.map (v'.heap[·]?) = cs.map some ∧ v'.number = ((k + pgs.length : Nat) : Int) + 1 ∧
      v'.current = p.canvas ∧ ∀ i ∈ is, i ≠ v'.canvas := by
  obtain ⟨is, v', h1, h2, h3, h4, h5, _⟩ := iterate_fails hr hx pgs cs hs rest k v fuel hd hk (base_reached (clean_reached hv)) (fresh_clean hv) hfuel
  exact ⟨is, v', h1, h2, h3, h4, h5⟩

/-- Two pages, and the second has a show operator without operand behind a string. -/
def brokenPages : DocPages := { pages := [pageOf b!"(one) Tj", pageOf b!"(half) Tj Tj", pageOf b!"(three) Tj"] }

example : ∃ v, Clean brokenPages v ∧ v.number = ((0 : Nat) : Int) + 1 := ⟨_, .opened _ rfl, rfl⟩

example : ∃ cs, AllShown [pageOf b!"(one) Tj"] cs ∧ cs.map (·.strings) = [[asc b!"one"]] := by
  have h1 : ∃ p, renderPage plainHost sampleResources b!"(one) Tj" {} = (.ok (), p) ∧ p.canvas.strings = [asc b!"one"] := ⟨_, by rfl, by rfl⟩
  obtain ⟨p1, e1, s1⟩ := h1
  exact ⟨[p1.canvas], .cons _ _ _ _ ⟨_, _, p1, ⟨rfl, _, rfl, .one _ _ _ _ rfl⟩, e1, rfl⟩ .nil, by show [p1.canvas.strings] = _; rw [s1]⟩

example : ∃ p, PageReads (pageOf b!"(half) Tj Tj") sampleResources b!"(half) Tj Tj" ∧ renderPage plainHost sampleResources b!"(half) Tj Tj" {} = (.error .indexError, p) ∧
    p.canvas.strings = [asc b!"half"] := ⟨_, ⟨rfl, _, rfl, .one _ _ _ _ rfl⟩, by rfl, by rfl⟩

/-- The strings of the canvases of an iteration from the first page, and the exception which ends it. -/
def iterated (doc : DocPages) (fuel : Nat) : Res (List (List Text) × Option Exc) :=
  (openViewer doc).map fun v => match canvasAll doc fuel (false, v) with | (is, e, v) => (is.map fun i => (v.heap.getD i {}).strings, e)

example : iterated brokenPages 5 = .ok ([[asc b!"one"]], some .indexError) := by decide +kernel

/-- A page which has no Contents: already the canvas of the page before it is lost, as the viewer goes on to the next page before it gives the canvas. -/
def emptyPage : PageInfo where
  host := plainHost
  resources := .ok sampleResources
  contents := .ok (.atom .null)

theorem C113_contents_counterexample : iterated { pages := [pageOf b!"(one) Tj", emptyPage] } 5 = .ok ([], some .typeError) ∧
    iterated { pages := [pageOf b!"(one) Tj"] } 5 = .ok ([[asc b!"one"]], none) := by decide +kernel

end PdfReader
