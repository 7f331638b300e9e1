/-
  C117: the pages given by `viewer.iter_pages()`.
-/
import Verif.Model.ViewPages
import Verif.Props.Navigate
import Verif.Props.Failing

namespace PdfReader

open Spec

/-- How often an iterator is advanced. -/
def advances : List Browse → Nat
  | [] => 0
  | .next _ :: s => 1 + advances s
  | _ :: s => advances s

/-- Moving to the next page when there is one. -/
theorem next_moves {doc : DocPages} {v : Viewer} (hb : Base doc v) {k : Nat} (hnum : v.number = (k : Int) + 1) {pg : PageInfo} (hk : doc.pages[k + 1]? = some pg)
    {r : Resources} {s : Bytes} (hr : PageReads pg r s) : ∃ v', v.next doc = (.ok (), v') ∧ v'.number = ((k + 1 : Nat) : Int) + 1 ∧ Base doc v' := by
  have hp : PageIs doc (v.number + 1) pg := ⟨k + 1, by rw [hnum]; omega, hk⟩
  have hb' := base_navigate hb (v.number + 1)
  rcases navigate_cases hb.known (v.number + 1) with ⟨q, kn, hq, _, _, e⟩ | ⟨x, hx, _⟩
  · have := page_unique hp hq
    subst this
    rw [after_ok hr] at e
    refine ⟨_, e, ?_, ?_⟩
    · show v.number + 1 = _
      rw [hnum]
      omega
    · rw [e] at hb'
      exact hb'
  · rw [fetch_ok.mpr hp] at hx
    cases hx

/-- On the last page there is no next one. -/
theorem next_ends {doc : DocPages} (hd : doc.fails = none) {v : Viewer} (hb : Base doc v) {k : Nat} (hnum : v.number = (k : Int) + 1) (hk : doc.pages.length ≤ k + 1) :
    v.next doc = (.error .pageDoesNotExist, v) := by
  have hn : NoPage doc (v.number + 1) := ⟨hd, k + 1, by rw [hnum]; omega, hk⟩
  rcases navigate_cases hb.known (v.number + 1) with ⟨q, kn, ⟨j, hj, hq⟩, _, _, e⟩ | ⟨x, hx, e⟩
  · rw [List.getElem?_eq_none (by omega)] at hq
    cases hq
  · rw [fetch_none hn] at hx
    cases hx
    exact e

/-- The current page is the page of its number. -/
theorem current_page {doc : DocPages} {v : Viewer} (hb : Base doc v) {k : Nat} (hnum : v.number = (k : Int) + 1) {pg : PageInfo} (hk : doc.pages[k]? = some pg) :
    assoc v.number v.known = some pg := by
  obtain ⟨q, hq⟩ := hb.current
  rw [hq, page_unique (hb.known _ _ hq) ⟨k, hnum, hk⟩]

/-- More padding than is taken changes nothing. -/
theorem take_pad {α : Type} (l : List α) (x : α) (a : Nat) : (l ++ List.replicate (a + 1) x).take a = (l ++ List.replicate a x).take a := by
  rw [List.replicate_succ', ← List.append_assoc, List.take_append_of_le_length (by simp)]

/-- One iterator, advanced and the page rendered in any order. -/
theorem browse_run {doc : DocPages} (hd : doc.fails = none) (i : Nat) : ∀ (schedule : List Browse) (w : Browsing),
    (∀ u ∈ schedule, u = .next i ∨ u = .render) → Base doc w.viewer →
    ∀ k : Nat, (w.ended i = false → w.viewer.number = (k : Int) + 1 ∧ k < doc.pages.length) → (w.ended i = true → doc.pages.length ≤ k) →
    (∀ pg ∈ doc.pages.drop (k + 1), ∃ r s, PageReads pg r s) →
    (w.run doc schedule).seen i = w.seen i ++
      (((doc.pages.drop k).map fun pg => (.ok (some pg) : Res (Option PageInfo))) ++ List.replicate (advances schedule) (Except.ok none)).take (advances schedule)
  | [], w, _, _, k, _, _, _ => by
    show w.seen i = _
    rw [advances, List.take_zero, List.append_nil]
  | u :: schedule, w, hu, hb, k, h0, h1, hr => by
    have ih := browse_run hd i schedule
    have hs : ∀ u ∈ schedule, u = .next i ∨ u = .render := fun u h => hu u (List.mem_cons_of_mem _ h)
    show (Browsing.run doc (w.use doc u) schedule).seen i = _
    rcases hu u (List.mem_cons_self ..) with rfl | rfl
    · rw [show advances (Browse.next i :: schedule) = advances schedule + 1 by rw [advances]; omega]
      cases hended : w.ended i with
      | true =>
        have hl := h1 hended
        have hw : w.use doc (.next i) = ⟨w.viewer, fun j => if j = i then true else w.ended j, fun j => if j = i then w.seen i ++ [.ok none] else w.seen j⟩ := by
          unfold Browsing.use
          dsimp only
          rw [hended]
          unfold pagesNext
          rfl
        rw [ih (w.use doc (.next i)) hs (by rw [hw]; exact hb) k (fun h => by rw [hw] at h; simp at h) (fun _ => hl) hr]
        rw [hw]
        dsimp only
        rw [if_pos rfl, List.drop_eq_nil_of_le hl, List.replicate_succ]
        simp
      | false =>
        obtain ⟨hnum, hk⟩ := h0 hended
        have hpg : doc.pages[k]? = some doc.pages[k] := List.getElem?_eq_getElem hk
        have hcur := current_page hb hnum hpg
        have hdrop : doc.pages.drop k = doc.pages[k] :: doc.pages.drop (k + 1) := List.drop_eq_getElem_cons hk
        rw [hdrop, List.map_cons, List.cons_append, List.take_succ_cons]
        by_cases hlast : k + 1 < doc.pages.length
        · have hpg2 : doc.pages[k + 1]? = some doc.pages[k + 1] := List.getElem?_eq_getElem hlast
          have hdrop2 : doc.pages.drop (k + 1) = doc.pages[k + 1] :: doc.pages.drop (k + 2) := List.drop_eq_getElem_cons hlast
          obtain ⟨r, s, hr1⟩ := hr doc.pages[k + 1] (by rw [hdrop2]; exact List.mem_cons_self ..)
          obtain ⟨v', hn, hnum', hb'⟩ := next_moves hb hnum hpg2 hr1
          have hw : w.use doc (.next i) = ⟨v', fun j => if j = i then false else w.ended j, fun j => if j = i then w.seen i ++ [.ok (some doc.pages[k])] else w.seen j⟩ := by
            unfold Browsing.use
            dsimp only
            rw [hended]
            unfold pagesNext
            dsimp only
            rw [hcur]
            dsimp only
            rw [hn]
            rfl
          rw [ih (w.use doc (.next i)) hs (by rw [hw]; exact hb') (k + 1) (fun _ => by rw [hw]; exact ⟨hnum', hlast⟩) (fun h => by rw [hw] at h; simp at h)
            (fun pg h => hr pg (by rw [hdrop2]; exact List.mem_cons_of_mem _ h))]
          rw [hw]
          dsimp only
          rw [if_pos rfl, List.append_assoc, take_pad]
          rfl
        · have hn := next_ends hd hb hnum (by omega)
          have hw : w.use doc (.next i) = ⟨w.viewer, fun j => if j = i then true else w.ended j, fun j => if j = i then w.seen i ++ [.ok (some doc.pages[k])] else w.seen j⟩ := by
            unfold Browsing.use
            dsimp only
            rw [hended]
            unfold pagesNext
            dsimp only
            rw [hcur]
            dsimp only
            rw [hn]
            rfl
          rw [ih (w.use doc (.next i)) hs (by rw [hw]; exact hb) (k + 1) (fun h => by rw [hw] at h; simp at h) (fun _ => by omega)
            (fun pg h => by rw [List.drop_eq_nil_of_le (by omega)] at h; cases h)]
          rw [hw]
          dsimp only
          rw [if_pos rfl, List.append_assoc, take_pad]
          rfl
    · have hn : (w.use doc .render).viewer.number = w.viewer.number := render_number w.viewer
      rw [ih (w.use doc .render) hs (base_render hb) k (fun h => by rw [hn]; exact h0 h) h1 hr]
      rfl

/-- C117, the part which holds: an iterator of `viewer.iter_pages()` which is the only one that moves the viewer, in any state the viewer may have reached, at
page `k + 1`: its answers are the pages from the current one on, in order, and then StopIteration. The pages may be rendered in between, and
rendering may fail. Missing: pages are given when others also move the viewer (`C117_two_counterexample`), and when a later page has no content
(`C117_lost_counterexample`). -/
theorem C117_pages_partial (doc : DocPages) (hd : doc.fails = none) (v : Viewer) (hv : Reached doc v) (k : Nat) (hk : v.number = (k : Int) + 1)
    (hr : ∀ pg ∈ doc.pages.drop (k + 1), ∃ r s, PageReads pg r s) (i : Nat) (schedule : List Browse) (hs : ∀ u ∈ schedule, u = .next i ∨ u = .render) :
    (Browsing.run doc { viewer := v } schedule).seen i =
      (((doc.pages.drop k).map fun pg => (.ok (some pg) : Res (Option PageInfo))) ++ List.replicate (advances schedule) (Except.ok none)).take (advances schedule) := by
  have hb := base_reached hv
  rw [browse_run hd i schedule { viewer := v } hs hb k (fun _ => ?_) (fun h => absurd (show false = true from h) (by decide)) hr]
  · rfl
  · refine ⟨hk, ?_⟩
    obtain ⟨pg, hp⟩ := hb.current
    obtain ⟨j, hj, hq⟩ := hb.known _ _ hp
    have : j = k := by
      have : v.number = (j : Int) + 1 := hj
      omega
    subst this
    exact (List.getElem?_eq_some_iff.mp hq).1

/-- The hypotheses are met: three questions to the iterator of a new viewer, with the page rendered in between. -/
example : ∃ v, openViewer twoPages = .ok v ∧
    (Browsing.run twoPages { viewer := v } [.next 0, .render, .next 0, .next 0]).seen 0 =
      [.ok (some (pageOf b!"(one) Tj")), .ok (some (pageOf b!"(two) Tj")), .ok none] := by
  obtain ⟨v, hv⟩ := twoPages_open
  refine ⟨v, hv, ?_⟩
  have hn : v.number = ((0 : Nat) : Int) + 1 := by
    have h : (openViewer twoPages).map (·.number) = .ok 1 := rfl
    rw [hv] at h
    exact Except.ok.inj h
  refine (C117_pages_partial twoPages rfl v (.opened v hv) 0 hn ?_ 0 [.next 0, .render, .next 0, .next 0] ?_).trans rfl
  · intro pg h
    simp [twoPages] at h
    subst h
    exact ⟨sampleResources, b!"(two) Tj", rfl, _, rfl, .one _ _ _ _ rfl⟩
  · intro u h
    simp at h
    rcases h with rfl | rfl | rfl | rfl <;> simp

/-- What the iterators saw: the contents of the pages. -/
def given (doc : DocPages) (schedule : List Browse) (i : Nat) : List (Res (Option Bytes)) :=
  match openViewer doc with
  | .error e => [.error e]
  | .ok v => ((Browsing.run doc { viewer := v } schedule).seen i).map fun r => r.map fun o => o.bind fun pg =>
    match pg.contents with
    | .ok c => (contentsData pg.host c).toOption
    | .error _ => none

/-- C117 is false when two iterators are in use: they share the current page of the viewer, so that each page but the last is given to one of them only,
and the last one to both. -/
theorem C117_two_counterexample :
    given { pages := [pageOf b!"(one) Tj", pageOf b!"(two) Tj", pageOf b!"(three) Tj"] } [.next 0, .next 1, .next 0, .next 1, .next 0, .next 1] 0 =
      [.ok (some b!"(one) Tj"), .ok (some b!"(three) Tj"), .ok none] ∧
    given { pages := [pageOf b!"(one) Tj", pageOf b!"(two) Tj", pageOf b!"(three) Tj"] } [.next 0, .next 1, .next 0, .next 1, .next 0, .next 1] 1 =
      [.ok (some b!"(two) Tj"), .ok (some b!"(three) Tj"), .ok none] := by decide +kernel

/-- C117 is false when the next page has no Contents: the page before it is not given, although it could be read. -/
theorem C117_lost_counterexample : given { pages := [pageOf b!"(one) Tj", emptyPage] } [.next 0] 0 = [.error .typeError] := by decide +kernel

end PdfReader
