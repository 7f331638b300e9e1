/-
  Lemmas about navigation.
-/
import Verif.Lemmas.Painted

namespace PdfReader

open Spec

/-! ### Pages and their content -/

theorem fetch_ok {doc : DocPages} {n : Int} {pg : PageInfo} : fetchPage doc n = .ok pg ↔ PageIs doc n pg := by
  unfold fetchPage PageIs
  constructor
  · intro h
    split at h
    · cases h
    · split at h
      · rename_i hn p hp
        cases h
        exact ⟨(n - 1).toNat, by omega, hp⟩
      · cases h
  · rintro ⟨k, rfl, hk⟩
    rw [if_neg (by omega)]
    have : ((k : Int) + 1 - 1).toNat = k := by omega
    rw [this, hk]

theorem fetch_none {doc : DocPages} {n : Int} (h : NoPage doc n) : fetchPage doc n = .error .pageDoesNotExist := by
  obtain ⟨hf, k, rfl, hk⟩ := h
  unfold fetchPage
  rw [if_neg (by omega)]
  have : ((k : Int) + 1 - 1).toNat = k := by omega
  rw [this, List.getElem?_eq_none hk, hf]
  rfl

theorem page_unique {doc : DocPages} {n : Int} {p q : PageInfo} (h1 : PageIs doc n p) (h2 : PageIs doc n q) : p = q := by
  have := (fetch_ok.mpr h1).symm.trans (fetch_ok.mpr h2)
  injection this

theorem contents_ok {h : Host} {c : Val} {s : Bytes} : contentsData h c = .ok s ↔ ContentsAre h c s := by
  constructor
  · intro e
    unfold contentsData at e
    split at e
    · rename_i cls es d
      exact .one cls es d s e
    · rename_i vs
      have : ∀ (vs : List Val) (ss : List Bytes), resMap (partData h) vs = .ok ss → ContentsAre h (.arr vs) ss.flatten := by
        intro vs
        induction vs with
        | nil => intro ss e; cases e; exact .none
        | cons v vs ih =>
          intro ss e
          unfold resMap at e
          split at e
          · cases e
          · rename_i y hy
            cases hr : resMap (partData h) vs with
            | error x => rw [hr] at e; cases e
            | ok ys =>
              rw [hr] at e
              cases e
              unfold partData at hy
              split at hy
              · rename_i cls es d
                exact .more cls es d y _ vs hy (ih ys hr)
              · cases hy
              · cases hy
      cases hr : resMap (partData h) vs with
      | error x => rw [hr] at e; cases e
      | ok ss =>
        rw [hr] at e
        cases e
        exact this vs ss hr
    · cases e; exact .empty _ (.inr (.inr (.inr ⟨_, rfl⟩)))
    · cases e
    · cases e; exact .empty _ (.inr (.inr (.inl rfl)))
    · cases e; exact .empty _ (.inr (.inl rfl))
    · cases e; exact .empty _ (.inl rfl)
    all_goals cases e
  · intro hc
    induction hc with
    | one cls es d s e => exact e
    | none => rfl
    | more cls es d s t vs e _ ih =>
      unfold contentsData at ih ⊢
      dsimp only at ih ⊢
      cases hr : resMap (partData h) vs with
      | error x => rw [hr] at ih; cases ih
      | ok ss =>
        rw [hr] at ih
        cases ih
        have : resMap (partData h) (.stream cls es d :: vs) = .ok (s :: ss) := by
          unfold resMap
          rw [show partData h (.stream cls es d) = .ok s from e, hr]
          rfl
        rw [this]
        rfl
    | empty v h => rcases h with rfl | rfl | rfl | ⟨cls, rfl⟩ <;> rfl

theorem contents_unique {h : Host} {c : Val} {s t : Bytes} (h1 : ContentsAre h c s) (h2 : ContentsAre h c t) : s = t := by
  have := (contents_ok.mpr h1).symm.trans (contents_ok.mpr h2)
  injection this

theorem reads_unique {pg : PageInfo} {r r' : Resources} {s s' : Bytes} (h1 : PageReads pg r s) (h2 : PageReads pg r' s') : r = r' ∧ s = s' := by
  obtain ⟨a, c, b, d⟩ := h1
  obtain ⟨a', c', b', d'⟩ := h2
  rw [a] at a'
  rw [b] at b'
  injection a' with a'
  injection b' with b'
  subst a' b'
  exact ⟨rfl, contents_unique d d'⟩

theorem shown_unique {pg : PageInfo} {c c' : Canvas} (h1 : Shown pg c) (h2 : Shown pg c') : c = c' := by
  obtain ⟨r, s, p, a, b, rfl⟩ := h1
  obtain ⟨r', s', p', a', b', rfl⟩ := h2
  obtain ⟨rfl, rfl⟩ := reads_unique a a'
  rw [b] at b'
  injection b' with _ b'
  rw [b']

/-! ### navigate -/

/-- The viewer on a page. -/
def Viewer.on (v : Viewer) (r : Resources) (s : Bytes) : Viewer :=
  { v with decoders := [], brackets := [], heap := v.heap.set v.canvas {}, gss := [], res := r, stream := s }

theorem after_ok {pg : PageInfo} {r : Resources} {s : Bytes} (h : PageReads pg r s) (v : Viewer) : afterNavigate pg v = (.ok (), v.on r s) := by
  obtain ⟨a, c, b, d⟩ := h
  unfold afterNavigate
  dsimp only
  rw [a]
  dsimp only
  rw [b]
  dsimp only
  rw [contents_ok.mpr d]
  rfl

theorem after_reads {pg : PageInfo} {v v' : Viewer} {u : Unit} (h : afterNavigate pg v = (.ok u, v')) : ∃ r s, PageReads pg r s ∧ v' = v.on r s := by
  unfold afterNavigate at h
  dsimp only at h
  split at h
  · cases h
  · rename_i r hr
    split at h
    · cases h
    · rename_i c hc
      split at h
      · cases h
      · rename_i s hs
        cases h
        exact ⟨r, s, ⟨hr, c, hc, contents_ok.mp hs⟩, rfl⟩

theorem after_frame (pg : PageInfo) (v : Viewer) : (afterNavigate pg v).2.known = v.known ∧ (afterNavigate pg v).2.number = v.number ∧
    (afterNavigate pg v).2.canvas = v.canvas ∧ (afterNavigate pg v).2.cache = v.cache ∧ (afterNavigate pg v).2.heap = v.heap.set v.canvas {} := by
  unfold afterNavigate
  dsimp only
  split
  · exact ⟨rfl, rfl, rfl, rfl, rfl⟩
  · split
    · exact ⟨rfl, rfl, rfl, rfl, rfl⟩
    · split <;> exact ⟨rfl, rfl, rfl, rfl, rfl⟩

/-- What holds of a viewer after any history. -/
structure Base (doc : DocPages) (v : Viewer) : Prop where
  known : ∀ n pg, assoc n v.known = some pg → PageIs doc n pg
  current : ∃ pg, assoc v.number v.known = some pg
  canvas : v.canvas < v.heap.length
  cached : ∀ n i, assoc n v.cache = some i → i < v.heap.length ∧ i ≠ v.canvas

/-- navigate: the page is known or fetched, and `after_navigate` runs; or nothing happens. -/
theorem navigate_cases {doc : DocPages} {v : Viewer} (hb : ∀ n pg, assoc n v.known = some pg → PageIs doc n pg) (n : Int) :
    (∃ pg k, PageIs doc n pg ∧ (∀ m q, assoc m k = some q → PageIs doc m q) ∧ assoc n k = some pg ∧
      Viewer.navigate doc n v = afterNavigate pg { v with known := k, number := n }) ∨
    (∃ e, fetchPage doc n = .error e ∧ Viewer.navigate doc n v = (.error e, v)) := by
  unfold Viewer.navigate
  cases ha : assoc n v.known with
  | some pg => exact .inl ⟨pg, v.known, hb n pg ha, hb, ha, rfl⟩
  | none =>
    dsimp only
    cases hf : fetchPage doc n with
    | error e => exact .inr ⟨e, rfl, rfl⟩
    | ok pg =>
      refine .inl ⟨pg, (n, pg) :: v.known, fetch_ok.mp hf, ?_, ?_, rfl⟩
      · intro m q hm
        unfold assoc at hm
        dsimp only at hm
        by_cases e : n = m
        · rw [if_pos e] at hm
          cases hm
          subst e
          exact fetch_ok.mp hf
        · rw [if_neg e] at hm
          exact hb m q hm
      · unfold assoc
        exact if_pos rfl

theorem base_after {doc : DocPages} {pg : PageInfo} {v : Viewer} (h : Base doc v) : Base doc (afterNavigate pg v).2 := by
  obtain ⟨a, b, c, d, e⟩ := after_frame pg v
  refine ⟨?_, ?_, ?_, ?_⟩
  · rw [a]; exact h.known
  · rw [a, b]; exact h.current
  · rw [c, e, List.length_set]; exact h.canvas
  · rw [c, d, e, List.length_set]; exact h.cached

theorem base_navigate {doc : DocPages} {v : Viewer} (h : Base doc v) (n : Int) : Base doc (Viewer.navigate doc n v).2 := by
  rcases navigate_cases h.known n with ⟨pg, k, _, hk, ha, e⟩ | ⟨x, _, e⟩
  · rw [e]
    exact base_after ⟨hk, ⟨pg, ha⟩, h.canvas, h.cached⟩
  · rw [e]; exact h

theorem base_render {doc : DocPages} {v : Viewer} (h : Base doc v) : Base doc (Viewer.render v).2 := by
  unfold Viewer.render
  split
  · rename_i i hi
    refine ⟨h.known, h.current, ?_, ?_⟩
    · show v.heap.length < (v.heap ++ [_]).length
      rw [List.length_append]
      simp
    · intro n j hj
      show j < (v.heap ++ [_]).length ∧ j ≠ v.heap.length
      have := (h.cached n j hj).1
      rw [List.length_append]
      simp
      omega
  · split
    · exact h
    · rename_i pg _
      have hp : ∀ r w, v.paint pg = (r, w) → Base doc w := by
        intro r w e
        unfold Viewer.paint at e
        cases hr : renderPage pg.host v.res v.stream { gss := v.gss, canvas := v.current, brackets := v.brackets, decoders := v.decoders } with
        | mk r' p =>
          rw [hr] at e
          cases e
          exact ⟨h.known, h.current, by rw [List.length_set]; exact h.canvas, by rw [List.length_set]; exact h.cached⟩
      split
      · rename_i e w hw
        exact hp _ _ hw
      · rename_i x w hw
        have hb := hp _ _ hw
        refine ⟨hb.known, hb.current, ?_, ?_⟩
        · show w.canvas < (w.heap ++ [_]).length
          rw [List.length_append]
          have := hb.canvas
          simp
          omega
        · intro n j hj
          show j < (w.heap ++ [_]).length ∧ j ≠ w.canvas
          unfold assoc at hj
          dsimp only at hj
          rw [List.length_append]
          split at hj
          · cases hj
            have := hb.canvas
            simp
            omega
          · have := hb.cached n j hj
            simp
            exact ⟨by omega, this.2⟩

theorem base_start (doc : DocPages) (pg : PageInfo) (h : PageIs doc 1 pg) (w : Viewer) (hw : w = { heap := [{}], canvas := 0, number := 1, known := [(1, pg)] }) : Base doc w := by
  subst hw
  refine ⟨?_, ⟨pg, rfl⟩, Nat.zero_lt_one, fun n i h => by cases h⟩
  intro n q hn
  unfold assoc at hn
  dsimp only at hn
  split at hn
  · rename_i e
    cases hn
    rw [← e]
    exact h
  · cases hn

theorem open_cases {doc : DocPages} {v : Viewer} (h : openViewer doc = .ok v) : ∃ pg r s, PageIs doc 1 pg ∧ PageReads pg r s ∧
    v = ({ heap := [{}], canvas := 0, number := 1, known := [(1, pg)] } : Viewer).on r s := by
  unfold openViewer at h
  split at h
  · cases h
  · rename_i u w hw
    cases h
    unfold Viewer.navigate at hw
    dsimp only [assoc] at hw
    cases hf : fetchPage doc 1 with
    | error e => rw [hf] at hw; cases hw
    | ok pg =>
      rw [hf] at hw
      obtain ⟨r, s, hr, e⟩ := after_reads hw
      exact ⟨pg, r, s, fetch_ok.mp hf, hr, e⟩

theorem base_call {doc : DocPages} {v : Viewer} (h : Base doc v) (c : Call) : Base doc (c.run doc v).2 := by
  cases c with
  | navigate n => exact base_navigate h n
  | next => exact base_navigate h _
  | prev => exact base_navigate h _
  | render => exact base_render h

theorem base_reached {doc : DocPages} {v : Viewer} (h : Reached doc v) : Base doc v := by
  induction h with
  | opened v ho =>
    obtain ⟨pg, r, s, h1, _, rfl⟩ := open_cases ho
    have := base_start doc pg h1 _ rfl
    exact ⟨this.known, this.current, Nat.zero_lt_one, fun n i h => by cases h⟩
  | called c v v' r _ e ih =>
    have := base_call ih c
    rw [e] at this
    exact this

theorem clean_reached {doc : DocPages} {v : Viewer} (h : Clean doc v) : Reached doc v := by
  induction h with
  | opened v ho => exact .opened v ho
  | called c v v' _ e ih => exact .called c v v' _ ih e

/-! ### render -/

/-- What holds of a viewer after calls which returned. -/
structure Fresh (doc : DocPages) (v : Viewer) : Prop where
  reads : ∃ pg, PageIs doc v.number pg ∧ PageReads pg v.res v.stream
  blank : assoc v.number v.cache = none → v.gss = [] ∧ v.brackets = [] ∧ v.decoders = [] ∧ v.current = {}
  cache : ∀ n i, assoc n v.cache = some i → ∃ pg c, PageIs doc n pg ∧ Shown pg c ∧ v.heap[i]? = some c

theorem current_set (v : Viewer) (h : v.canvas < v.heap.length) (c : Canvas) : (v.heap.set v.canvas c).getD v.canvas {} = c := by
  rw [List.getD_eq_getElem?_getD, List.getElem?_set_self h]
  rfl

theorem fresh_on {doc : DocPages} {v : Viewer} {pg : PageInfo} {r : Resources} {s : Bytes} (hb : Base doc v) (hp : PageIs doc v.number pg) (hr : PageReads pg r s)
    (hc : ∀ n i, assoc n v.cache = some i → ∃ pg c, PageIs doc n pg ∧ Shown pg c ∧ v.heap[i]? = some c) : Fresh doc (v.on r s) := by
  refine ⟨⟨pg, hp, hr⟩, fun _ => ⟨rfl, rfl, rfl, current_set v hb.canvas {}⟩, ?_⟩
  intro n i h
  obtain ⟨q, c, h1, h2, h3⟩ := hc n i h
  refine ⟨q, c, h1, h2, ?_⟩
  show (v.heap.set v.canvas {})[i]? = _
  rw [List.getElem?_set_ne (fun e => (hb.cached n i h).2 e.symm)]
  exact h3

theorem fresh_navigate {doc : DocPages} {v v' : Viewer} {n : Int} {u : Unit} (hb : Base doc v) (hf : Fresh doc v) (e : Viewer.navigate doc n v = (.ok u, v')) : Fresh doc v' := by
  rcases navigate_cases hb.known n with ⟨pg, k, hp, hk, ha, e'⟩ | ⟨x, _, e'⟩
  · rw [e'] at e
    obtain ⟨r, s, hr, rfl⟩ := after_reads e
    exact fresh_on (v := { v with known := k, number := n }) ⟨hk, ⟨pg, ha⟩, hb.canvas, hb.cached⟩ hp hr hf.cache
  · rw [e'] at e; cases e

/-- Rendering, in a fresh state: the canvas is that of the page. -/
theorem fresh_render {doc : DocPages} {v : Viewer} (hb : Base doc v) (hf : Fresh doc v) {pg : PageInfo} (hp : PageIs doc v.number pg) :
    (∀ v' u, v.render = (.ok u, v') → Fresh doc v' ∧ ∃ c, Shown pg c ∧ v'.current = c) ∧ (∀ c, Shown pg c → ∃ v', v.render = (.ok (), v')) := by
  obtain ⟨pg', hp', hr⟩ := hf.reads
  have := page_unique hp hp'
  subst this
  unfold Viewer.render
  cases hc : assoc v.number v.cache with
  | some i =>
    dsimp only
    refine ⟨?_, fun c _ => ⟨_, rfl⟩⟩
    intro v' u e
    cases e
    obtain ⟨q, c, h1, h2, h3⟩ := hf.cache _ i hc
    have := page_unique hp h1
    subst this
    have hlt := (hb.cached _ i hc).1
    refine ⟨⟨hf.reads.imp fun _ h => h, fun h => ?_, ?_⟩, c, h2, ?_⟩
    · have : assoc v.number v.cache = none := h
      rw [hc] at this
      cases this
    · intro n j hj
      obtain ⟨q, c, h1, h2, h3⟩ := hf.cache n j hj
      refine ⟨q, c, h1, h2, ?_⟩
      show (v.heap ++ [_])[j]? = _
      rw [List.getElem?_append_left (hb.cached n j hj).1]
      exact h3
    · show (v.heap ++ [v.heap.getD i {}]).getD v.heap.length {} = c
      rw [List.getD_eq_getElem?_getD, List.getElem?_append_right (Nat.le_refl _), Nat.sub_self]
      show v.heap.getD i {} = c
      rw [List.getD_eq_getElem?_getD, h3]
      rfl
  | none =>
    dsimp only
    obtain ⟨b1, b2, b3, b4⟩ := hf.blank hc
    have hk : assoc v.number v.known = some pg := by
      obtain ⟨q, hq⟩ := hb.current
      rw [hq, page_unique hp (hb.known _ _ hq)]
    rw [hk]
    dsimp only
    unfold Viewer.paint
    rw [b1, b2, b3, b4]
    cases hrend : renderPage pg.host v.res v.stream {} with
    | mk r p =>
      cases r with
      | error x =>
        refine ⟨fun v' u e => (by cases e), fun c hs => ?_⟩
        obtain ⟨r', s', p', a', b', _⟩ := hs
        obtain ⟨rfl, rfl⟩ := reads_unique hr a'
        rw [hrend] at b'
        cases b'
      | ok x =>
        refine ⟨?_, fun c _ => ⟨_, rfl⟩⟩
        have hshown : Shown pg p.canvas := ⟨v.res, v.stream, p, hr, by rw [hrend], rfl⟩
        intro v' u e
        cases e
        have hcur : (v.heap.set v.canvas p.canvas).getD v.canvas {} = p.canvas := current_set v hb.canvas _
        refine ⟨⟨⟨pg, hp, hr⟩, fun h => ?_, ?_⟩, p.canvas, hshown, ?_⟩
        · unfold assoc at h
          dsimp only at h
          rw [if_pos rfl] at h
          cases h
        · intro n j hj
          unfold assoc at hj
          dsimp only at hj
          split at hj
          · rename_i e
            cases hj
            subst e
            refine ⟨pg, p.canvas, hp, hshown, ?_⟩
            show (v.heap.set v.canvas p.canvas ++ [(v.heap.set v.canvas p.canvas).getD v.canvas {}])[(v.heap.set v.canvas p.canvas).length]? = _
            rw [List.getElem?_append_right (Nat.le_refl _), Nat.sub_self, hcur]
            rfl
          · obtain ⟨q, c, h1, h2, h3⟩ := hf.cache n j hj
            have hlt := hb.cached n j hj
            refine ⟨q, c, h1, h2, ?_⟩
            show (v.heap.set v.canvas p.canvas ++ [_])[j]? = _
            rw [List.getElem?_append_left (by rw [List.length_set]; exact hlt.1), List.getElem?_set_ne (fun e => hlt.2 e.symm)]
            exact h3
        · show (v.heap.set v.canvas p.canvas ++ [_]).getD v.canvas {} = _
          rw [List.getD_eq_getElem?_getD, List.getElem?_append_left (by rw [List.length_set]; exact hb.canvas), ← List.getD_eq_getElem?_getD, hcur]

theorem fresh_clean {doc : DocPages} {v : Viewer} (h : Clean doc v) : Fresh doc v := by
  induction h with
  | opened v ho =>
    obtain ⟨pg, r, s, h1, h2, rfl⟩ := open_cases ho
    exact fresh_on (base_start doc pg h1 _ rfl) h1 h2 fun n i h => by cases h
  | called c v v' hc e ih =>
    have hb := base_reached (clean_reached hc)
    cases c with
    | navigate n => exact fresh_navigate hb ih e
    | next => exact fresh_navigate hb ih e
    | prev => exact fresh_navigate hb ih e
    | render =>
      obtain ⟨pg, hp, _⟩ := ih.reads
      exact ((fresh_render hb ih hp).1 v' () e).1

/-! ### Canvases which are not the current one -/

/-- The object is a canvas other than the current one. -/
def Held (v : Viewer) (i : Nat) (c : Canvas) : Prop := v.heap[i]? = some c ∧ i ≠ v.canvas

theorem held_lt {v : Viewer} {i : Nat} {c : Canvas} (h : Held v i c) : i < v.heap.length := by
  by_cases hl : i < v.heap.length
  · exact hl
  · have := h.1
    rw [List.getElem?_eq_none (Nat.le_of_not_lt hl)] at this
    cases this

theorem held_after {v : Viewer} {i : Nat} {c : Canvas} (h : Held v i c) (pg : PageInfo) : Held (afterNavigate pg v).2 i c := by
  obtain ⟨_, _, a, _, b⟩ := after_frame pg v
  unfold Held
  rw [a, b, List.getElem?_set_ne (fun e => h.2 e.symm)]
  exact h

theorem held_navigate {doc : DocPages} {v : Viewer} (hb : Base doc v) {i : Nat} {c : Canvas} (h : Held v i c) (n : Int) : Held (Viewer.navigate doc n v).2 i c := by
  rcases navigate_cases hb.known n with ⟨q, k, hq, hk, ha, e⟩ | ⟨x, hx, e⟩
  · rw [e]
    exact held_after (v := { v with known := k, number := n }) h q
  · rw [e]; exact h

theorem held_render {v : Viewer} {i : Nat} {c : Canvas} (h : Held v i c) : Held (Viewer.render v).2 i c := by
  have hlt := held_lt h
  unfold Viewer.render
  split
  · exact ⟨(List.getElem?_append_left hlt).trans h.1, fun e => absurd hlt (by rw [e]; exact Nat.lt_irrefl _)⟩
  · split
    · exact h
    · rename_i pg _
      unfold Viewer.paint
      have hs : ∀ d, (v.heap.set v.canvas d)[i]? = some c := fun d => (List.getElem?_set_ne (fun e => h.2 e.symm)).trans h.1
      split
      · rename_i w hw
        injection hw with _ hw
        subst hw
        exact ⟨hs _, h.2⟩
      · rename_i w hw
        injection hw with _ hw
        subst hw
        refine ⟨?_, h.2⟩
        show (v.heap.set v.canvas _ ++ [_])[i]? = _
        rw [List.getElem?_append_left (by rw [List.length_set]; exact hlt)]
        exact hs _

theorem render_number (v : Viewer) : (Viewer.render v).2.number = v.number := by
  unfold Viewer.render
  split
  · rfl
  · split
    · rfl
    · unfold Viewer.paint
      split
      · rename_i w hw
        injection hw with _ hw
        subst hw
        rfl
      · rename_i w hw
        injection hw with _ hw
        subst hw
        rfl

/-- A copy of a canvas. -/
theorem base_snapshot {doc : DocPages} {v : Viewer} (h : Base doc v) (c : Canvas) : Base doc { v with heap := v.heap ++ [c] } := by
  refine ⟨h.known, h.current, ?_, ?_⟩
  · show v.canvas < (v.heap ++ [c]).length
    rw [List.length_append]
    have := h.canvas
    omega
  · intro n i hi
    show i < (v.heap ++ [c]).length ∧ i ≠ v.canvas
    have := h.cached n i hi
    rw [List.length_append]
    exact ⟨by omega, this.2⟩

theorem current_snapshot {doc : DocPages} {v : Viewer} (h : Base doc v) (c : Canvas) : ({ v with heap := v.heap ++ [c] } : Viewer).current = v.current := by
  show (v.heap ++ [c]).getD v.canvas {} = v.heap.getD v.canvas {}
  rw [List.getD_eq_getElem?_getD, List.getElem?_append_left h.canvas, List.getD_eq_getElem?_getD]

theorem fresh_snapshot {doc : DocPages} {v : Viewer} (h : Base doc v) (hf : Fresh doc v) (c : Canvas) : Fresh doc { v with heap := v.heap ++ [c] } := by
  refine ⟨hf.reads, fun hc => ?_, fun n i hi => ?_⟩
  · obtain ⟨a, b, c', d⟩ := hf.blank hc
    exact ⟨a, b, c', by rw [current_snapshot h]; exact d⟩
  · obtain ⟨q, d, h1, h2, h3⟩ := hf.cache n i hi
    exact ⟨q, d, h1, h2, (List.getElem?_append_left (h.cached n i hi).1).trans h3⟩

theorem held_snapshot {v : Viewer} {i : Nat} {c d : Canvas} (h : Held v i c) : Held { v with heap := v.heap ++ [d] } i c :=
  ⟨(List.getElem?_append_left (held_lt h)).trans h.1, h.2⟩

/-- Iteration over canvases. -/
theorem iterate {doc : DocPages} (hfails : doc.fails = none) : ∀ (pgs : List PageInfo) (cs : List Canvas), AllShown pgs cs → ∀ (k : Nat) (v : Viewer) (fuel : Nat),
    doc.pages.drop k = pgs → pgs ≠ [] → v.number = (k : Int) + 1 → Base doc v → Fresh doc v → cs.length < fuel →
    ∃ is v', canvasAll doc fuel (false, v) = (is, none, v') ∧ is.map (v'.heap[·]?) = cs.map some ∧ v'.number = doc.pages.length ∧ (∀ i ∈ is, i ≠ v'.canvas) ∧
      (∀ i c, Held v i c → Held v' i c) := by
  intro pgs cs hs
  induction hs with
  | nil => intro k v fuel _ hne; exact absurd rfl hne
  | cons pg c pgs cs hpc hall ih =>
    intro k v fuel hdrop _ hnum hb hf hfuel
    have hk : doc.pages[k]? = some pg := by
      have := congrArg (·[0]?) hdrop
      simpa using this
    have hdrop' : doc.pages.drop (k + 1) = pgs := by
      rw [← List.drop_drop, hdrop]
      rfl
    have hp : PageIs doc v.number pg := ⟨k, hnum, hk⟩
    obtain ⟨r1, r2⟩ := fresh_render hb hf hp
    obtain ⟨v1, e1⟩ := r2 c hpc
    obtain ⟨f1, c', hc', hcur⟩ := r1 v1 () e1
    have := shown_unique hc' hpc
    subst this
    have b1 : Base doc v1 := by have := base_render hb; rw [e1] at this; exact this
    have n1 : v1.number = v.number := by have := render_number v; rw [e1] at this; exact this
    have b2 := base_snapshot b1 v1.current
    have f2 := fresh_snapshot b1 f1 v1.current
    have h2 : Held { v1 with heap := v1.heap ++ [v1.current] } v1.heap.length c' := by
      refine ⟨?_, fun e => absurd b1.canvas (by rw [← show v1.heap.length = v1.canvas from e]; exact Nat.lt_irrefl _)⟩
      show (v1.heap ++ [v1.current])[v1.heap.length]? = _
      rw [List.getElem?_append_right (Nat.le_refl _), Nat.sub_self, hcur]
      rfl
    have hold : ∀ i c, Held v i c → Held { v1 with heap := v1.heap ++ [v1.current] } i c := by
      intro i c h
      have := held_render h
      rw [e1] at this
      exact held_snapshot this
    have hnav : Viewer.next doc { v1 with heap := v1.heap ++ [v1.current] } = Viewer.navigate doc (k + 1 + 1) { v1 with heap := v1.heap ++ [v1.current] } := by
      unfold Viewer.next
      rw [show ({ v1 with heap := v1.heap ++ [v1.current] } : Viewer).number = (k : Int) + 1 from n1.trans hnum]
    obtain ⟨fuel, rfl⟩ : ∃ m, fuel = m + 1 := ⟨fuel - 1, by omega⟩
    cases hall with
    | nil =>
      have hlen : doc.pages.length ≤ k + 1 := List.drop_eq_nil_iff.mp hdrop'
      have hno : NoPage doc ((k : Int) + 1 + 1) := ⟨hfails, k + 1, by omega, hlen⟩
      have hnx : Viewer.navigate doc ((k : Int) + 1 + 1) { v1 with heap := v1.heap ++ [v1.current] } = (.error .pageDoesNotExist, { v1 with heap := v1.heap ++ [v1.current] }) := by
        rcases navigate_cases b2.known ((k : Int) + 1 + 1) with ⟨q, _, hq, _⟩ | ⟨x, hx, e⟩
        · have := fetch_ok.mpr hq
          rw [fetch_none hno] at this
          cases this
        · rw [fetch_none hno] at hx
          cases hx
          exact e
      have hstep : canvasNext doc (false, v) = (.ok (some v1.heap.length), (true, { v1 with heap := v1.heap ++ [v1.current] })) := by
        unfold canvasNext
        dsimp only
        rw [e1]
        dsimp only
        rw [hnav, hnx]
        rfl
      obtain ⟨fuel, rfl⟩ : ∃ m, fuel = m + 1 := ⟨fuel - 1, by simp at hfuel; omega⟩
      refine ⟨[v1.heap.length], { v1 with heap := v1.heap ++ [v1.current] }, ?_, ?_, ?_, ?_, hold⟩
      · unfold canvasAll
        rw [hstep]
        dsimp only
        unfold canvasAll
        rfl
      · show [(v1.heap ++ [v1.current])[v1.heap.length]?] = [some c']
        rw [show (v1.heap ++ [v1.current])[v1.heap.length]? = some c' from h2.1]
      · show v1.number = _
        rw [n1, hnum]
        have : k < doc.pages.length := by
          by_cases h : k < doc.pages.length
          · exact h
          · rw [List.getElem?_eq_none (Nat.le_of_not_lt h)] at hk; cases hk
        omega
      · intro i hi
        rw [List.mem_singleton] at hi
        subst hi
        exact h2.2
    | cons pg2 c2 pgs cs hpc2 hall2 =>
      have hk2 : doc.pages[k + 1]? = some pg2 := by
        have := congrArg (·[0]?) hdrop'
        simpa using this
      have hp2 : PageIs doc ((k : Int) + 1 + 1) pg2 := ⟨k + 1, by omega, hk2⟩
      obtain ⟨r, s, _, hr, _⟩ := hpc2
      obtain ⟨v3, hnx, hnum3⟩ : ∃ v3, Viewer.navigate doc ((k : Int) + 1 + 1) { v1 with heap := v1.heap ++ [v1.current] } = (.ok (), v3) ∧ v3.number = (k : Int) + 1 + 1 := by
        rcases navigate_cases b2.known ((k : Int) + 1 + 1) with ⟨q, kn, hq, _, _, e⟩ | ⟨x, hx, _⟩
        · have := page_unique hp2 hq
          subst this
          rw [e, after_ok hr]
          exact ⟨_, rfl, rfl⟩
        · rw [fetch_ok.mpr hp2] at hx
          cases hx
      have b3 : Base doc v3 := by have := base_navigate b2 ((k : Int) + 1 + 1); rw [hnx] at this; exact this
      have f3 := fresh_navigate b2 f2 hnx
      have held3 : ∀ i c, Held { v1 with heap := v1.heap ++ [v1.current] } i c → Held v3 i c := by
        intro i c h
        have := held_navigate b2 h ((k : Int) + 1 + 1)
        rw [hnx] at this
        exact this
      have hstep : canvasNext doc (false, v) = (.ok (some v1.heap.length), (false, v3)) := by
        unfold canvasNext
        dsimp only
        rw [e1]
        dsimp only
        rw [hnav, hnx]
        rfl
      obtain ⟨is, v', e', m', nn, ne, hh⟩ := ih (k + 1) v3 fuel hdrop' (by simp) (by rw [hnum3]; omega) b3 f3 (by simp at hfuel ⊢; omega)
      have hlast := hh _ _ (held3 _ _ h2)
      refine ⟨v1.heap.length :: is, v', ?_, ?_, nn, ?_, fun i c h => hh i c (held3 i c (hold i c h))⟩
      · unfold canvasAll
        rw [hstep]
        dsimp only
        rw [e']
      · show v'.heap[v1.heap.length]? :: _ = _
        rw [m', hlast.1]
        rfl
      · intro i hi
        rcases List.mem_cons.mp hi with rfl | hi
        · exact hlast.2
        · exact ne i hi

end PdfReader
