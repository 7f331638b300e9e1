/-
  C138: canvases which the user changes.
-/
import Verif.Spec.Handed
import Verif.Props.Navigate

namespace PdfReader

open Spec

/-- What holds after such a history. -/
structure Apart (doc : DocPages) (v : Viewer) (held : List Nat) (shown : List Int) : Prop where
  base : Base doc v
  fresh : Fresh doc v
  held : ∀ i ∈ held, i < v.heap.length ∧ ∀ n, assoc n v.cache ≠ some i
  shown : ∀ n ∈ shown, ∃ i, assoc n v.cache = some i

theorem apart_navigate {doc : DocPages} {v v' : Viewer} {held : List Nat} {shown : List Int} (h : Apart doc v held shown) {n : Int} (e : Viewer.navigate doc n v = (.ok (), v')) :
    Apart doc v' held shown := by
  have hb := base_navigate h.base n
  rw [e] at hb
  have hc : v'.cache = v.cache ∧ v'.heap.length = v.heap.length := by
    rcases navigate_cases h.base.known n with ⟨pg, k, _, _, _, e'⟩ | ⟨x, _, e'⟩
    · obtain ⟨_, _, _, a, b⟩ := after_frame pg { v with known := k, number := n }
      rw [← e', e] at a b
      exact ⟨a, by rw [b, List.length_set]⟩
    · rw [e'] at e; cases e
  exact ⟨hb, fresh_navigate h.base h.fresh e, by rw [hc.1, hc.2]; exact h.held, by rw [hc.1]; exact h.shown⟩

theorem render_cache {v v' : Viewer} (e : Viewer.render v = (.ok (), v')) : v.heap.length < v'.heap.length ∧ (∃ i, assoc v.number v'.cache = some i) ∧
    (∀ n i, assoc n v.cache = some i → ∃ j, assoc n v'.cache = some j) ∧ ∀ n i, assoc n v'.cache = some i → assoc n v.cache = some i ∨ v.heap.length ≤ i := by
  unfold Viewer.render at e
  split at e
  · rename_i i hi
    cases e
    refine ⟨?_, ⟨i, hi⟩, fun n j h => ⟨j, h⟩, fun n j h => .inl h⟩
    show v.heap.length < (v.heap ++ [_]).length
    rw [List.length_append]; simp
  · split at e
    · cases e
    · unfold Viewer.paint at e
      split at e
      · cases e
      · rename_i pg hpg u w hw
        injection hw with _ hw
        cases e
        subst hw
        have hl : ∀ d : Canvas, (v.heap.set v.canvas d).length = v.heap.length := fun d => List.length_set
        refine ⟨?_, ⟨_, if_pos rfl⟩, ?_, ?_⟩
        · show v.heap.length < (v.heap.set v.canvas _ ++ [_]).length
          rw [List.length_append, hl]; simp
        · intro n i h
          show ∃ j, (if v.number = n then some _ else assoc n v.cache) = some j
          by_cases hn : v.number = n
          · rw [if_pos hn]; exact ⟨_, rfl⟩
          · rw [if_neg hn]; exact ⟨i, h⟩
        · intro n i h
          replace h : (if v.number = n then some (v.heap.set v.canvas _).length else assoc n v.cache) = some i := h
          by_cases hn : v.number = n
          · rw [if_pos hn, hl] at h; cases h; exact .inr (Nat.le_refl _)
          · rw [if_neg hn] at h; exact .inl h

theorem apart_render {doc : DocPages} {v v' : Viewer} {held : List Nat} {shown : List Int} (h : Apart doc v held shown) (e : Viewer.render v = (.ok (), v')) :
    Apart doc v' held (v.number :: shown) := by
  have hb := base_render h.base
  rw [e] at hb
  obtain ⟨c1, c2, c3, c4⟩ := render_cache e
  obtain ⟨pg, hp, _⟩ := h.fresh.reads
  refine ⟨hb, ((fresh_render h.base h.fresh hp).1 v' () e).1, ?_, ?_⟩
  · intro i hi
    obtain ⟨h1, h2⟩ := h.held i hi
    refine ⟨by omega, fun n hn => ?_⟩
    rcases c4 n i hn with hc | hc
    · exact h2 n hc
    · omega
  · intro n hn
    rcases List.mem_cons.1 hn with rfl | hn
    · exact c2
    · obtain ⟨i, hi⟩ := h.shown n hn
      exact c3 n i hi

theorem apart_snapshot {doc : DocPages} {v : Viewer} {held : List Nat} {shown : List Int} (h : Apart doc v held shown) (c : Canvas) :
    Apart doc { v with heap := v.heap ++ [c] } (v.heap.length :: held) shown := by
  have hl : (v.heap ++ [c]).length = v.heap.length + 1 := by rw [List.length_append]; rfl
  refine ⟨base_snapshot h.base c, fresh_snapshot h.base h.fresh c, ?_, h.shown⟩
  intro i hi
  show i < (v.heap ++ [c]).length ∧ _
  rw [hl]
  rcases List.mem_cons.1 hi with rfl | hi
  · exact ⟨Nat.lt_succ_self _, fun n hn => absurd (h.base.cached n _ hn).1 (Nat.lt_irrefl _)⟩
  · exact ⟨Nat.lt_succ_of_lt (h.held i hi).1, (h.held i hi).2⟩

/-- A step of the iterator: rendering, a copy, and navigating unless there is no page. -/
theorem step_cases {doc : DocPages} {v v' : Viewer} {i : Nat} {last : Bool} (hb : Base doc v) (e : canvasNext doc (false, v) = (.ok (some i), (last, v')))
    (hl : last = true → NoPage doc (v.number + 1)) : ∃ v1, v.render = (.ok (), v1) ∧ i = v1.heap.length ∧
      (Viewer.navigate doc (v1.number + 1) { v1 with heap := v1.heap ++ [v1.current] } = (.ok (), v') ∨ v' = { v1 with heap := v1.heap ++ [v1.current] }) := by
  unfold canvasNext at e
  dsimp only at e
  cases hr : v.render with
  | mk r v1 =>
    rw [hr] at e
    cases r with
    | error x => cases e
    | ok u =>
      have hb1 := base_render hb
      have hnum := render_number v
      rw [hr] at hb1 hnum
      dsimp only at hnum
      refine ⟨v1, rfl, ?_⟩
      have hb2 := base_snapshot hb1 v1.current
      unfold Viewer.next at e
      dsimp only at e
      have hno : NoPage doc (v1.number + 1) → Viewer.navigate doc (v1.number + 1) { v1 with heap := v1.heap ++ [v1.current] } =
          (.error .pageDoesNotExist, { v1 with heap := v1.heap ++ [v1.current] }) := by
        intro hn
        rcases navigate_cases hb2.known (v1.number + 1) with ⟨q, _, hq, _⟩ | ⟨x, hx, e⟩
        · have := fetch_ok.mpr hq
          rw [fetch_none hn] at this
          cases this
        · rw [fetch_none hn] at hx
          cases hx
          exact e
      rw [← hnum] at hl
      generalize Viewer.navigate doc (v1.number + 1) { v1 with heap := v1.heap ++ [v1.current] } = r at e hno ⊢
      obtain ⟨r2, v2⟩ := r
      cases r2 with
      | ok _ => cases e; exact ⟨rfl, .inl rfl⟩
      | error x =>
        by_cases hx : x = .pageDoesNotExist
        · subst hx
          cases e
          have := hno (hl rfl)
          injection this with _ this
          exact ⟨rfl, .inr this⟩
        · cases x <;> first | exact absurd rfl hx | cases e

theorem apart_change {doc : DocPages} {v : Viewer} {held : List Nat} {shown : List Int} (h : Apart doc v held shown) {i : Nat} (hi : i ∈ held)
    (hc : i = v.canvas → v.number ∈ shown) (c : Canvas) : Apart doc { v with heap := v.heap.set i c } held shown := by
  have hl : (v.heap.set i c).length = v.heap.length := List.length_set
  refine ⟨⟨h.base.known, h.base.current, ?_, ?_⟩, ⟨h.fresh.reads, ?_, ?_⟩, ?_, h.shown⟩
  · show v.canvas < (v.heap.set i c).length
    rw [hl]; exact h.base.canvas
  · show ∀ n j, _ → j < (v.heap.set i c).length ∧ _
    rw [hl]; exact h.base.cached
  · intro hn
    replace hn : assoc v.number v.cache = none := hn
    obtain ⟨b1, b2, b3, b4⟩ := h.fresh.blank hn
    have hne : i ≠ v.canvas := fun e => by
      obtain ⟨j, hj⟩ := h.shown _ (hc e)
      rw [hn] at hj; cases hj
    refine ⟨b1, b2, b3, ?_⟩
    show (v.heap.set i c).getD v.canvas {} = _
    rw [List.getD_eq_getElem?_getD, List.getElem?_set_ne hne, ← List.getD_eq_getElem?_getD]
    exact b4
  · intro n j hj
    obtain ⟨pg, d, h1, h2, h3⟩ := h.fresh.cache n j hj
    refine ⟨pg, d, h1, h2, ?_⟩
    have hne : i ≠ j := fun e => (h.held i hi).2 n (by rw [e]; exact hj)
    show (v.heap.set i c)[j]? = _
    rw [List.getElem?_set_ne hne]
    exact h3
  · show ∀ j ∈ held, j < (v.heap.set i c).length ∧ _
    rw [hl]; exact h.held

theorem handed_apart {doc : DocPages} {v : Viewer} {held : List Nat} {shown : List Int} (h : Handed doc v held shown) : Apart doc v held shown := by
  induction h with
  | opened v ho => exact ⟨base_reached (.opened v ho), fresh_clean (.opened v ho), fun i hi => (by cases hi), fun n hn => (by cases hn)⟩
  | navigated n v v' held shown _ e ih => exact apart_navigate ih e
  | rendered v v' held shown _ e ih => exact apart_render ih e
  | taken v held shown _ ih =>
    refine ⟨ih.base, ih.fresh, ?_, ih.shown⟩
    intro i hi
    rcases List.mem_cons.1 hi with rfl | hi
    · exact ⟨ih.base.canvas, fun n hn => (ih.base.cached n _ hn).2 rfl⟩
    · exact ih.held i hi
  | iterated v v' i last held shown _ e hl ih =>
    obtain ⟨v1, e1, rfl, e2⟩ := step_cases ih.base e hl
    have h2 := apart_snapshot (apart_render ih e1) v1.current
    rcases e2 with e2 | e2
    · exact apart_navigate h2 e2
    · rw [e2]; exact h2
  | changed v i c held shown _ hi hc ih => exact apart_change ih hi hc c

/-- C138: whatever the user did with the canvases he took from a viewer (but for changing the viewer's own canvas before it is rendered on), a page which can be
rendered alone is rendered to the same canvas. -/
theorem C138_renders (doc : DocPages) (v : Viewer) (held : List Nat) (shown : List Int) (h : Handed doc v held shown) (pg : PageInfo) (hp : PageIs doc v.number pg) (c : Canvas)
    (hc : Shown pg c) : ∃ v', v.render = (.ok (), v') ∧ v'.current = c := by
  have ha := handed_apart h
  obtain ⟨h1, h2⟩ := fresh_render ha.base ha.fresh hp
  obtain ⟨v', e⟩ := h2 c hc
  obtain ⟨_, c', hs, he⟩ := h1 v' () e
  exact ⟨v', e, by rw [he, shown_unique hs hc]⟩

/-- … and whenever render returns, the canvas is that of the page rendered alone. -/
theorem C138_alone (doc : DocPages) (v v' : Viewer) (held : List Nat) (shown : List Int) (h : Handed doc v held shown) (e : v.render = (.ok (), v')) :
    ∃ pg, PageIs doc v.number pg ∧ Shown pg v'.current := by
  have ha := handed_apart h
  obtain ⟨pg, hp, _⟩ := ha.fresh.reads
  obtain ⟨_, c, hs, hc⟩ := (fresh_render ha.base ha.fresh hp).1 v' () e
  exact ⟨pg, hp, by rw [hc]; exact hs⟩

/-- Iterating from there gives the canvases of the pages. -/
theorem C138_iterates (doc : DocPages) (hd : doc.fails = none) (v : Viewer) (held : List Nat) (shown : List Int) (h : Handed doc v held shown) (k : Nat)
    (hk : v.number = (k : Int) + 1) (cs : List Canvas) (hs : AllShown (doc.pages.drop k) cs) (fuel : Nat) (hfuel : cs.length < fuel) :
    ∃ is v', canvasAll doc fuel (false, v) = (is, none, v') ∧ is.map (v'.heap[·]?) = cs.map some := by
  have ha := handed_apart h
  obtain ⟨pg, ⟨k', hk', hp⟩, _⟩ := ha.fresh.reads
  have : k' = k := by omega
  subst this
  have hne : doc.pages.drop k' ≠ [] := by
    intro e
    have := congrArg (·[0]?) e
    simp [hp] at this
  obtain ⟨is, v', e, h1, _, _, _⟩ := iterate hd _ cs hs k' v fuel rfl hne hk ha.base ha.fresh hfuel
  exact ⟨is, v', e, h1⟩

/-- The other way round: a canvas the user holds which is not that of the viewer keeps what the user has put there, whatever is called on the viewer. -/
theorem C138_keeps (doc : DocPages) (v : Viewer) (held : List Nat) (shown : List Int) (h : Handed doc v held shown) (i : Nat) (hi : i ≠ v.canvas) (c : Canvas)
    (hc : v.heap[i]? = some c) : ∀ calls : List Call, ((calls.foldl (fun w call => (call.run doc w).2) v).heap)[i]? = some c := by
  have ha := handed_apart h
  have : ∀ (calls : List Call) (w : Viewer), Base doc w → Held w i c → Held (calls.foldl (fun w call => (call.run doc w).2) w) i c := by
    intro calls
    induction calls with
    | nil => intro w _ hw; exact hw
    | cons call calls ih =>
      intro w hb hw
      refine ih _ (base_call hb call) ?_
      cases call with
      | navigate n => exact held_navigate hb hw n
      | next => exact held_navigate hb hw _
      | prev => exact held_navigate hb hw _
      | render => exact held_render hw
  intro calls
  exact (this calls v ha.base ⟨hc, hi⟩).1

/-- Open, change the canvas, render, render again: the strings of the canvas. -/
def noteThenRender (doc : DocPages) (c : Canvas) : Option (List Text) :=
  match openViewer doc with
  | .error _ => none
  | .ok v =>
    match ({ v with heap := v.heap.set v.canvas c } : Viewer).render with
    | (.error _, _) => none
    | (.ok _, v) =>
      match v.render with
      | (.error _, _) => none
      | (.ok _, v) => some v.current.strings

/-- The canvas of the viewer itself must not be changed before rendering: what is put there stays, also in what is rendered later. -/
theorem C138_unrendered : noteThenRender twoPages { strings := [asc b!"note"] } = some [asc b!"note", asc b!"one"] := by decide +kernel

/-- The first page rendered, its canvas taken and its strings replaced; rendered again, the page has its string. -/
example : ∃ v v1 v', openViewer twoPages = .ok v ∧ v.render = (.ok (), v1) ∧ Handed twoPages { v1 with heap := v1.heap.set v1.canvas { strings := [asc b!"note"] } } [v1.canvas] [v.number] ∧
    ({ v1 with heap := v1.heap.set v1.canvas { strings := [asc b!"note"] } } : Viewer).current.strings = [asc b!"note"] ∧
    ({ v1 with heap := v1.heap.set v1.canvas { strings := [asc b!"note"] } } : Viewer).render = (.ok (), v') ∧ v'.current.strings = [asc b!"one"] := by
  obtain ⟨cs, hall, hstr⟩ := twoPages_shown
  cases hall with
  | cons pg c pgs cs hpc hall2 =>
    have hone : c.strings = [asc b!"one"] := by
      rw [List.map_cons] at hstr
      exact (List.cons.inj hstr).1
    obtain ⟨v, hv, hnum, _⟩ := C49_opens twoPages _ twoPages_first.1 _ _ twoPages_first.2
    have h0 : Handed twoPages v [] [] := .opened v hv
    obtain ⟨v1, hr, _⟩ := C138_renders _ _ _ _ h0 _ (by rw [hnum]; exact twoPages_first.1) c hpc
    have h1 := Handed.taken _ _ _ (.rendered _ _ _ _ h0 hr)
    have hn : v1.number = v.number := by have := render_number v; rw [hr] at this; exact this
    have h2 := Handed.changed _ v1.canvas { strings := [asc b!"note"] } _ _ h1 (List.mem_singleton.2 rfl) (fun _ => List.mem_singleton.2 hn)
    obtain ⟨v', e, hc⟩ := C138_renders _ _ _ _ h2 (pageOf b!"(one) Tj") (by show PageIs twoPages v1.number _; rw [hn, hnum]; exact twoPages_first.1) c hpc
    refine ⟨v, v1, v', hv, hr, h2, ?_, e, by rw [hc]; exact hone⟩
    have := current_set v1 (handed_apart h1).base.canvas { strings := [asc b!"note"] }
    show ((v1.heap.set v1.canvas { strings := [asc b!"note"] }).getD v1.canvas {}).strings = _
    rw [this]

end PdfReader
