/-
  The viewer on two documents which answer alike.
-/
import Verif.Lemmas.Layout
import Verif.Spec.Viewer

namespace PdfReader

open Spec

variable {D : Nat → Nat → Prop}

/-- The references in the fonts which are cached. -/
def DecIn (D : Nat → Nat → Prop) (ds : List (Option Bytes × Option Val)) : Prop := ∀ e ∈ ds, ∀ v, e.2 = some v → RefsInV D v

/-- Two computations on the state of rendering do the same. -/
def Same {α : Type} (D : Nat → Nat → Prop) (m m' : DM Paint α) : Prop := ∀ p, DecIn D p.decoders → m p = m' p ∧ DecIn D (m p).2.decoders

theorem same_self {α : Type} {m : DM Paint α} (h : ∀ p, (m p).2.decoders = p.decoders) : Same D m m := fun p hp => ⟨rfl, by rw [h]; exact hp⟩

theorem same_pure {α : Type} (r : Res α) : Same D (DM.pure r) (DM.pure r) := same_self fun _ => rfl

theorem same_bind {α β : Type} {m m' : DM Paint α} {f f' : α → DM Paint β} (h1 : Same D m m') (h2 : ∀ a, Same D (f a) (f' a)) : Same D (m.bind f) (m'.bind f') := by
  intro p hp
  obtain ⟨e, i⟩ := h1 p hp
  unfold DM.bind
  rw [← e]
  generalize m p = r at i
  obtain ⟨r, q⟩ := r
  cases r with
  | error e => exact ⟨rfl, i⟩
  | ok a => exact h2 a q i

/-- The same, where the value is known. -/
theorem same_bind_pure {α β : Type} {r : Res α} {f f' : α → DM Paint β} (h : ∀ a, r = .ok a → Same D (f a) (f' a)) : Same D ((DM.pure r).bind f) ((DM.pure r).bind f') := by
  intro p hp
  cases r with
  | error e => exact ⟨rfl, hp⟩
  | ok a => exact h a rfl p hp

theorem same_ite {α : Type} {c : Prop} [Decidable c] {m m' n n' : DM Paint α} (h1 : Same D m m') (h2 : Same D n n') :
    Same D (if c then m else n) (if c then m' else n') := by
  split
  · exact h1
  · exact h2

theorem same_save : Same D saveState saveState := by
  refine same_self fun p => ?_
  unfold saveState
  split
  · rfl
  · split <;> rfl

theorem same_set (k : Bytes) (v : Val) : Same D (setField k v) (setField k v) := by
  refine same_self fun p => ?_
  unfold setField
  split <;> rfl

theorem same_addText (r : Res Text) : Same D (addText r) (addText r) := by
  refine same_self fun p => ?_
  unfold addText
  cases r <;> rfl

theorem same_addString (t : Text) : Same D (addString t) (addString t) := same_self fun _ => rfl

theorem same_keep (args : List Obj) {m m' : DM Paint Unit} (h : Same D m m') : Same D (keep args m) (keep args m') := same_bind h fun _ => same_pure _

theorem named_refs {res : Resources} (hr : RefsInR D res) {cat : Bytes} {es : List (Bytes × Val)} (h : assoc cat res = some (.named es)) {key : Option Bytes} {v : Val}
    (hv : (key.bind fun k => assoc k es) = some v) : RefsInV D v := by
  cases key with
  | none => cases hv
  | some k => exact hr _ (assoc_isMem h) es rfl _ (assoc_isMem hv)

theorem lookupResource_refs {res : Resources} (hr : RefsInR D res) {cat : Bytes} {key : Option Bytes} {v : Val} (h : lookupResource res cat key = .ok (some v)) :
    RefsInV D v := by
  unfold lookupResource at h
  split at h
  · rename_i es he
    exact named_refs hr he (Except.ok.inj h)
  all_goals cases h

theorem lookupFont_refs {res : Resources} (hr : RefsInR D res) {key : Option Bytes} {v : Val} (h : lookupFont res key = .ok (some v)) : RefsInV D v := by
  unfold lookupFont at h
  split at h
  · rename_i es he
    exact named_refs hr he (Except.ok.inj h)
  · split at h
    · split at h <;> cases h
    · cases h
  · cases h

variable {h h' : Host} {res : Resources}

theorem same_decodeString (hh : HostsAgree D h h') (hr : RefsInR D res) (o : Obj) : Same D (decodeString h res o) (decodeString h' res o) := by
  intro p hp
  unfold decodeString
  dsimp only
  cases fontKey ((ensureState p.gss).headD []) with
  | error e => exact ⟨rfl, hp⟩
  | ok k =>
    dsimp only
    cases ha : assoc k p.decoders with
    | some d =>
      cases d with
      | none => exact ⟨rfl, hp⟩
      | some f =>
        dsimp only
        rw [hh.decode f (hp _ (assoc_isMem ha) f rfl) o]
        exact ⟨rfl, hp⟩
    | none =>
      dsimp only
      cases hl : lookupFont res k with
      | error e => exact ⟨rfl, hp⟩
      | ok d =>
        cases d with
        | none =>
          refine ⟨rfl, fun e he v hv => ?_⟩
          rcases List.mem_cons.1 he with rfl | he
          · cases hv
          · exact hp e he v hv
        | some f =>
          have hf := lookupFont_refs hr hl
          dsimp only
          rw [hh.decode f hf o]
          refine ⟨rfl, fun e he v hv => ?_⟩
          rcases List.mem_cons.1 he with rfl | he
          · cases hv; exact hf
          · exact hp e he v hv

theorem same_showOne (hh : HostsAgree D h h') (hr : RefsInR D res) (args : List Obj) : Same D (showOne h res args) (showOne h' res args) :=
  same_bind (same_pure _) fun o => same_bind (same_decodeString hh hr o) fun t => same_bind (same_addString t) fun _ => same_pure _

theorem same_showEach (hh : HostsAgree D h h') (hr : RefsInR D res) : ∀ xs : List Obj, Same D (showEach h res xs) (showEach h' res xs)
  | [] => same_pure _
  | o :: os => by
    have ih := same_showEach hh hr os
    have hs : ∀ o, Same D ((decodeString h res o).bind fun t => (addString t).bind fun _ => (showEach h res os).bind fun r => DM.pure (.ok (.inl (quoted t) :: r)))
        ((decodeString h' res o).bind fun t => (addString t).bind fun _ => (showEach h' res os).bind fun r => DM.pure (.ok (.inl (quoted t) :: r))) := fun o =>
      same_bind (same_decodeString hh hr o) fun t => same_bind (same_addString t) fun _ => same_bind ih fun r => same_pure _
    unfold showEach
    cases o with
    | str s => exact hs _
    | hex s => exact hs _
    | _ => exact same_bind ih fun r => same_pure _

theorem same_showMany (hh : HostsAgree D h h') (hr : RefsInR D res) (args : List Obj) : Same D (showMany h res args) (showMany h' res args) := by
  refine same_bind (same_pure _) fun o => ?_
  cases o with
  | arr xs => exact same_bind (same_showEach hh hr xs) fun r => same_pure _
  | dict es => cases es <;> exact same_pure _
  | _ => exact same_pure _

theorem same_decodeProps (hh : HostsAgree D h h') (hr : RefsInR D res) (args : List Obj) : Same D (decodeProps h res args) (decodeProps h' res args) := by
  unfold decodeProps
  split
  · split
    · exact same_bind (same_decodeString hh hr _) fun t => same_pure _
    · exact same_pure _
  · exact same_pure _
  · exact same_pure _

theorem same_applyGs (hh : HostsAgree D h h') (hr : RefsInR D res) (args : List Obj) : Same D (applyGs h res args) (applyGs h' res args) := by
  refine same_bind (same_pure _) fun o => same_bind (same_pure _) fun k => same_bind_pure fun v hv => ?_
  cases v with
  | none => exact same_pure _
  | some v =>
    have hv := lookupResource_refs hr hv
    refine same_ite ?_ (same_pure _)
    cases hv with
    | dict c es he =>
      intro p hp
      dsimp only
      rw [hh.items es he]
      refine ⟨rfl, ?_⟩
      cases h'.items es with
      | error e => exact hp
      | ok items =>
        dsimp only
        split
        · exact hp
        · split
          · exact hp
          · split <;> exact hp
    | atom o _ => exact same_self fun p => rfl
    | arr o _ => exact same_self fun p => rfl
    | stream c d data _ => exact same_self fun p => rfl

theorem same_onOperator (hh : HostsAgree D h h') (hr : RefsInR D res) {onDo onDo' : List Obj → DM Paint Unit} (hd : ∀ args, Same D (onDo args) (onDo' args)) (name : Bytes)
    (args : List Obj) : Same D (onOperator h res onDo name args) (onOperator h' res onDo' name args) := by
  have first : ∀ k, Same D (keep args ((DM.pure (arg0 args)).bind fun o => setField k (.atom o))) (keep args ((DM.pure (arg0 args)).bind fun o => setField k (.atom o))) :=
    fun k => same_keep args (same_bind (same_pure _) fun o => same_set _ _)
  unfold onOperator
  refine same_ite (same_keep _ same_save) ?_
  refine same_ite (same_keep _ (same_self fun _ => rfl)) ?_
  refine same_ite (same_keep _ (same_set _ _)) ?_
  refine same_ite (first _) ?_
  refine same_ite (first _) ?_
  refine same_ite (first _) ?_
  refine same_ite (first _) ?_
  refine same_ite (same_keep _ (same_set _ _)) ?_
  refine same_ite (first _) ?_
  refine same_ite (first _) ?_
  refine same_ite (same_keep _ (same_applyGs hh hr args)) ?_
  refine same_ite (same_keep _ (same_self fun _ => rfl)) ?_
  refine same_ite (same_keep _ (same_self fun _ => rfl)) ?_
  refine same_ite (same_keep _ (same_set _ _)) ?_
  refine same_ite (same_showOne hh hr args) ?_
  refine same_ite (same_showMany hh hr args) ?_
  refine same_ite (same_decodeProps hh hr args) ?_
  refine same_ite (same_keep _ (hd args)) ?_
  refine same_ite (same_keep _ (same_self fun _ => rfl)) ?_
  refine same_ite (same_pure _) ?_
  exact same_keep _ (same_pure _)

theorem same_notifyAll (hh : HostsAgree D h h') (hr : RefsInR D res) {onDo onDo' : List Obj → DM Paint Unit} (hd : ∀ args, Same D (onDo args) (onDo' args))
    {onN : DM Paint Unit} (hn : Same D onN onN) : ∀ cs : List Content, Same D (notifyAll h res onDo onN cs) (notifyAll h' res onDo' onN cs)
  | [] => same_pure _
  | .op name args :: cs => by
    refine same_bind ?_ fun _ => same_notifyAll hh hr hd hn cs
    refine same_bind (same_ite same_save (same_pure _)) fun _ => same_bind (same_onOperator hh hr hd _ _) fun shown => ?_
    exact same_bind (same_ite (same_self fun _ => rfl) (same_ite hn (same_ite (same_addText _) (same_pure _)))) fun _ => same_addText _
  | .image d data :: cs => by
    refine same_bind (same_self fun p => ?_) fun _ => same_notifyAll hh hr hd hn cs
    unfold notifyImage addText
    cases printObj (.image d data) <;> rfl

theorem same_renderStream (hh : HostsAgree D h h') (hr : RefsInR D res) {onDo onDo' : List Obj → DM Paint Unit} (hd : ∀ args, Same D (onDo args) (onDo' args))
    {onN : DM Paint Unit} (hn : Same D onN onN) (s : Bytes) : Same D (renderStream h res onDo onN s) (renderStream h' res onDo' onN s) := by
  refine same_bind (same_notifyAll hh hr hd hn _) fun _ => ?_
  cases (contentObjects s).2 <;> exact same_pure _

theorem same_renderForm (hh : HostsAgree D h h') (hr : RefsInR D res) (s name : Bytes) : Same D (renderForm h res s name) (renderForm h' res s name) := by
  intro p hp
  obtain ⟨e, _⟩ := same_renderStream hh hr (fun _ => same_pure (.ok ())) (same_pure (.ok ())) s { gss := p.gss } (fun e he => by cases he)
  unfold renderForm
  rw [e]
  refine ⟨rfl, ?_⟩
  generalize renderStream h' res _ _ s _ = r
  obtain ⟨r, q⟩ := r
  cases r <;> exact hp

theorem same_onDoPage (hh : HostsAgree D h h') (hr : RefsInR D res) (args : List Obj) : Same D (onDoPage h res args) (onDoPage h' res args) := by
  refine same_bind (same_pure _) fun o => same_bind (same_pure _) fun k => same_bind_pure fun v hv => ?_
  cases k with
  | none => exact same_pure _
  | some name =>
    cases v with
    | none => exact same_pure _
    | some x =>
      have hx := lookupResource_refs hr hv
      intro p hp
      dsimp only
      unfold paintXObject
      split
      · split
        · exact ⟨rfl, hp⟩
        · split
          · exact ⟨rfl, hp⟩
          · split
            · rw [← hh.forms x hx, ← hh.data]
              cases hf : h.formResources x with
              | error e => exact ⟨rfl, hp⟩
              | ok r =>
                dsimp only
                cases h.data x with
                | error e => exact ⟨rfl, hp⟩
                | ok s => exact same_renderForm hh (hh.formsIn x hx r hf) s name p hp
            · exact ⟨rfl, hp⟩
      · exact ⟨rfl, hp⟩

theorem same_renderPage (hh : HostsAgree D h h') (hr : RefsInR D res) (s : Bytes) : Same D (renderPage h res s) (renderPage h' res s) :=
  same_renderStream hh hr (same_onDoPage hh hr) (fun _ _ => ⟨rfl, fun e he => by cases he⟩) s

theorem contentsData_same (hh : HostsAgree D h h') (v : Val) : contentsData h v = contentsData h' v := by
  have e : partData h = partData h' := by
    funext v
    unfold partData
    rw [hh.data]
  unfold contentsData
  rw [hh.data, e]

/-! ### The state of a viewer -/

/-- Lists of numbered pages alike. -/
inductive KnownAlike (D : Nat → Nat → Prop) : List (Int × PageInfo) → List (Int × PageInfo) → Prop
  | nil : KnownAlike D [] []
  | cons (n : Int) (pg pg' : PageInfo) (ps ps' : List (Int × PageInfo)) : PagesAlike D pg pg' → KnownAlike D ps ps' → KnownAlike D ((n, pg) :: ps) ((n, pg') :: ps')

theorem known_assoc {ps ps' : List (Int × PageInfo)} (h : KnownAlike D ps ps') (n : Int) :
    (assoc n ps = none ∧ assoc n ps' = none) ∨ ∃ pg pg', assoc n ps = some pg ∧ assoc n ps' = some pg' ∧ PagesAlike D pg pg' := by
  induction h with
  | nil => exact .inl ⟨rfl, rfl⟩
  | cons m pg pg' ps ps' h1 _ ih =>
    unfold assoc
    by_cases hm : m = n
    · rw [if_pos hm, if_pos hm]
      exact .inr ⟨pg, pg', rfl, rfl, h1⟩
    · rw [if_neg hm, if_neg hm]
      exact ih

/-- Two viewers which differ at most in where their pages come from. -/
structure Twins (D : Nat → Nat → Prop) (v w : Viewer) : Prop where
  heap : v.heap = w.heap
  canvas : v.canvas = w.canvas
  number : v.number = w.number
  gss : v.gss = w.gss
  brackets : v.brackets = w.brackets
  decoders : v.decoders = w.decoders
  decodersIn : DecIn D v.decoders
  res : v.res = w.res
  resIn : RefsInR D v.res
  stream : v.stream = w.stream
  known : KnownAlike D v.known w.known
  cache : v.cache = w.cache

theorem Twins.current {v w : Viewer} (h : Twins D v w) : v.current = w.current := by
  unfold Viewer.current
  rw [h.heap, h.canvas]

/-- The pages of two documents alike. -/
structure DocsAlike (D : Nat → Nat → Prop) (doc doc' : DocPages) : Prop where
  length : doc.pages.length = doc'.pages.length
  pages : ∀ (n : Nat) pg pg', doc.pages[n]? = some pg → doc'.pages[n]? = some pg' → PagesAlike D pg pg'
  fails : doc.fails = doc'.fails

/-- Two actions on viewers end in the same way. -/
def Both (D : Nat → Nat → Prop) (a b : Res Unit × Viewer) : Prop := a.1 = b.1 ∧ Twins D a.2 b.2

theorem both_after {pg pg' : PageInfo} (hp : PagesAlike D pg pg') {v w : Viewer} (h : Twins D v w) : Both D (afterNavigate pg v) (afterNavigate pg' w) := by
  obtain ⟨h1, h2, h3, h4, h5, h6, h7, h8, h9, h10, h11, h12⟩ := h
  unfold afterNavigate
  dsimp only
  rw [← hp.resources, ← hp.contents]
  cases hr : pg.resources with
  | error e => exact ⟨rfl, ⟨by dsimp only; rw [h1, h2], h2, h3, rfl, rfl, rfl, fun e he => (by cases he), h8, h9, h10, h11, h12⟩⟩
  | ok r =>
    have hri := hp.resourcesIn r hr
    dsimp only
    cases pg.contents with
    | error e => exact ⟨rfl, ⟨by dsimp only; rw [h1, h2], h2, h3, rfl, rfl, rfl, fun e he => (by cases he), rfl, hri, h10, h11, h12⟩⟩
    | ok c =>
      dsimp only
      rw [← contentsData_same hp.host]
      cases contentsData pg.host c with
      | error e => exact ⟨rfl, ⟨by dsimp only; rw [h1, h2], h2, h3, rfl, rfl, rfl, fun e he => (by cases he), rfl, hri, h10, h11, h12⟩⟩
      | ok s => exact ⟨rfl, ⟨by dsimp only; rw [h1, h2], h2, h3, rfl, rfl, rfl, fun e he => (by cases he), rfl, hri, rfl, h11, h12⟩⟩

theorem fetch_alike {doc doc' : DocPages} (hd : DocsAlike D doc doc') (n : Int) :
    (∃ e, fetchPage doc n = .error e ∧ fetchPage doc' n = .error e) ∨ ∃ pg pg', fetchPage doc n = .ok pg ∧ fetchPage doc' n = .ok pg' ∧ PagesAlike D pg pg' := by
  unfold fetchPage
  by_cases hn : n < 1
  · rw [if_pos hn, if_pos hn]
    exact .inl ⟨_, rfl, rfl⟩
  · rw [if_neg hn, if_neg hn, hd.fails]
    cases h1 : doc.pages[(n - 1).toNat]? with
    | none =>
      rw [List.getElem?_eq_none (by have := List.getElem?_eq_none_iff.1 h1; rw [hd.length] at this; exact this)]
      exact .inl ⟨_, rfl, rfl⟩
    | some pg =>
      cases h2 : doc'.pages[(n - 1).toNat]? with
      | none =>
        have := List.getElem?_eq_none_iff.1 h2
        rw [← hd.length] at this
        rw [List.getElem?_eq_none this] at h1
        cases h1
      | some pg' => exact .inr ⟨pg, pg', rfl, rfl, hd.pages _ pg pg' h1 h2⟩

theorem both_navigate {doc doc' : DocPages} (hd : DocsAlike D doc doc') (n : Int) {v w : Viewer} (h : Twins D v w) :
    Both D (Viewer.navigate doc n v) (Viewer.navigate doc' n w) := by
  unfold Viewer.navigate
  rcases known_assoc h.known n with ⟨e1, e2⟩ | ⟨pg, pg', e1, e2, hp⟩
  · rw [e1, e2]
    dsimp only
    rcases fetch_alike hd n with ⟨e, f1, f2⟩ | ⟨pg, pg', f1, f2, hp⟩
    · rw [f1, f2]
      exact ⟨rfl, h⟩
    · rw [f1, f2]
      dsimp only
      refine both_after hp ?_
      exact ⟨h.heap, h.canvas, rfl, h.gss, h.brackets, h.decoders, h.decodersIn, h.res, h.resIn, h.stream, .cons n pg pg' _ _ hp h.known, h.cache⟩
  · rw [e1, e2]
    dsimp only
    refine both_after hp ?_
    exact ⟨h.heap, h.canvas, rfl, h.gss, h.brackets, h.decoders, h.decodersIn, h.res, h.resIn, h.stream, h.known, h.cache⟩

theorem both_paint {pg pg' : PageInfo} (hp : PagesAlike D pg pg') {v w : Viewer} (h : Twins D v w) : Both D (v.paint pg) (w.paint pg') := by
  unfold Viewer.paint
  obtain ⟨e, i⟩ := same_renderPage hp.host h.resIn v.stream { gss := v.gss, canvas := v.current, brackets := v.brackets, decoders := v.decoders } h.decodersIn
  rw [h.current, h.gss, h.brackets, h.decoders, h.res, h.stream] at e i
  rw [h.current, h.gss, h.brackets, h.decoders, h.res, h.stream, ← e]
  generalize renderPage pg.host w.res w.stream _ = r at i
  obtain ⟨r, p⟩ := r
  exact ⟨rfl, ⟨by dsimp only; rw [h.heap, h.canvas], h.canvas, h.number, rfl, rfl, rfl, i, rfl, (by dsimp only; rw [← h.res]; exact h.resIn), rfl, h.known, h.cache⟩⟩

theorem both_render {v w : Viewer} (h : Twins D v w) : Both D (Viewer.render v) (Viewer.render w) := by
  unfold Viewer.render
  rw [← h.cache, ← h.number]
  cases assoc v.number v.cache with
  | some i =>
    exact ⟨rfl, ⟨by dsimp only; rw [h.heap], by dsimp only; rw [h.heap], (by first | exact h.number | rfl), h.gss, h.brackets, h.decoders, h.decodersIn, h.res, h.resIn, h.stream, h.known, (by first | exact h.cache | rfl)⟩⟩
  | none =>
    dsimp only
    rcases known_assoc h.known v.number with ⟨e1, e2⟩ | ⟨pg, pg', e1, e2, hp⟩
    · rw [e1, e2]
      exact ⟨rfl, h⟩
    · rw [e1, e2]
      dsimp only
      obtain ⟨e, t⟩ := both_paint hp h
      generalize v.paint pg = r at e t
      generalize w.paint pg' = r' at e t
      obtain ⟨r, v1⟩ := r
      obtain ⟨r', w1⟩ := r'
      dsimp only at e t
      subst e
      cases r with
      | error e => exact ⟨rfl, t⟩
      | ok u =>
        have hc := t.current
        refine ⟨rfl, ⟨?_, t.canvas, t.number, t.gss, t.brackets, t.decoders, t.decodersIn, t.res, t.resIn, t.stream, t.known, ?_⟩⟩
        · dsimp only
          rw [hc, t.heap]
        · dsimp only
          rw [t.heap, t.number, t.cache]

theorem both_call {doc doc' : DocPages} (hd : DocsAlike D doc doc') (c : Call) {v w : Viewer} (h : Twins D v w) : Both D (c.run doc v) (c.run doc' w) := by
  cases c with
  | navigate n => exact both_navigate hd n h
  | next =>
    show Both D (v.navigate doc (v.number + 1)) (w.navigate doc' (w.number + 1))
    rw [← h.number]
    exact both_navigate hd _ h
  | prev =>
    show Both D (v.navigate doc (v.number - 1)) (w.navigate doc' (w.number - 1))
    rw [← h.number]
    exact both_navigate hd _ h
  | render => exact both_render h

end PdfReader
