/-
  Lemmas about rendering.
-/
import Verif.Spec.Viewer

namespace PdfReader

open Spec

theorem DM.bind_ok {σ α β : Type} {m : DM σ α} {f : α → DM σ β} {s s' : σ} {b : β} (h : m.bind f s = (.ok b, s')) :
    ∃ a s1, m s = (.ok a, s1) ∧ f a s1 = (.ok b, s') := by
  unfold DM.bind at h
  generalize m s = r at h
  obtain ⟨r, s1⟩ := r
  cases r with
  | error e => cases h
  | ok a => exact ⟨a, s1, rfl, h⟩

theorem DM.bind_eq {σ α β : Type} {m : DM σ α} {f : α → DM σ β} {s s1 : σ} {a : α} (h : m s = (.ok a, s1)) : m.bind f s = f a s1 := by
  unfold DM.bind
  rw [h]

theorem DM.bind_error {σ α β : Type} {m : DM σ α} {f : α → DM σ β} {s s1 : σ} {e : Exc} (h : m s = (.error e, s1)) : m.bind f s = (.error e, s1) := by
  unfold DM.bind
  rw [h]

/-! ### The graphics state stack -/

/-- The states below the current one are the same. -/
def SameBelow (a b : List GState) : Prop := (a ≠ [] → b ≠ []) ∧ (ensureState b).tail = (ensureState a).tail

theorem ensure_ne (a : List GState) : ensureState a ≠ [] := by
  unfold ensureState
  split
  · simp
  · assumption

theorem ensure_idem (a : List GState) : ensureState (ensureState a) = ensureState a := by
  exact if_neg (ensure_ne a)

theorem ensure_of_ne {a : List GState} (h : a ≠ []) : ensureState a = a := by
  unfold ensureState
  rw [if_neg h]

theorem SameBelow.refl (a : List GState) : SameBelow a a := ⟨id, rfl⟩

theorem SameBelow.trans {a b c : List GState} (h1 : SameBelow a b) (h2 : SameBelow b c) : SameBelow a c :=
  ⟨fun h => h2.1 (h1.1 h), h2.2.trans h1.2⟩

theorem sameBelow_ensure (a : List GState) : SameBelow a (ensureState a) := ⟨fun _ => ensure_ne a, by rw [ensure_idem]⟩

theorem sameBelow_head {a gs : List GState} {g g' : GState} (h : ensureState a = g :: gs) : SameBelow a (g' :: gs) :=
  ⟨fun _ => by simp, by rw [h, ensure_of_ne (by simp)]; rfl⟩

theorem save_ok {p p' : Paint} {u : Unit} (h : saveState p = (.ok u, p')) : ∃ g, p'.gss = g :: ensureState p.gss ∧ p' = { p with gss := p'.gss } := by
  unfold saveState at h
  cases he : ensureState p.gss with
  | nil => exact absurd he (ensure_ne _)
  | cons g gs =>
    rw [he] at h
    dsimp only at h
    split at h
    · cases h; exact ⟨g, rfl, rfl⟩
    · cases h

theorem setField_ok (k : Bytes) (v : Val) (p : Paint) : ∃ g gs, ensureState p.gss = g :: gs ∧ setField k v p = (.ok (), { p with gss := assocSet k v g :: gs }) := by
  unfold setField
  cases he : ensureState p.gss with
  | nil => exact absurd he (ensure_ne _)
  | cons g gs => exact ⟨g, gs, rfl, rfl⟩

/-- Computations which keep the states below the current one, when they succeed. -/
def KeepsBelow {α : Type} (m : DM Paint α) : Prop := ∀ p a p', m p = (.ok a, p') → SameBelow p.gss p'.gss

theorem below_pure {α : Type} (r : Res α) : KeepsBelow (DM.pure r) := by
  intro p a p' h
  unfold DM.pure at h
  cases h
  exact .refl _

theorem below_bind {α β : Type} {m : DM Paint α} {f : α → DM Paint β} (h1 : KeepsBelow m) (h2 : ∀ a, KeepsBelow (f a)) : KeepsBelow (m.bind f) := by
  intro p b p' h
  obtain ⟨a, s1, e1, e2⟩ := DM.bind_ok h
  exact (h1 _ _ _ e1).trans (h2 a _ _ _ e2)

theorem below_ite {α : Type} {c : Prop} [Decidable c] {a b : DM Paint α} (h1 : KeepsBelow a) (h2 : KeepsBelow b) : KeepsBelow (if c then a else b) := by
  split
  · exact h1
  · exact h2

theorem below_setField (k : Bytes) (v : Val) : KeepsBelow (setField k v) := by
  intro p a p' h
  obtain ⟨g, gs, e, he⟩ := setField_ok k v p
  rw [he] at h
  cases h
  exact sameBelow_head e

theorem below_addString (t : Text) : KeepsBelow (addString t) := by
  intro p a p' h; cases h; exact .refl _

theorem below_addText (r : Res Text) : KeepsBelow (addText r) := by
  intro p a p' h
  unfold addText at h
  cases r with
  | error e => cases h
  | ok t => cases h; exact .refl _

theorem below_decodeString (h : Host) (res : Resources) (o : Obj) : KeepsBelow (decodeString h res o) := by
  intro p a p' e
  unfold decodeString at e
  dsimp only at e
  split at e
  · cases e
  · split at e
    · injection e with _ e; subst e; exact sameBelow_ensure _
    · split at e
      · cases e
      · injection e with _ e; subst e; exact sameBelow_ensure _

theorem below_keep (args : List Obj) {m : DM Paint Unit} (h : KeepsBelow m) : KeepsBelow (keep args m) := below_bind h fun _ => below_pure _

theorem below_showOne (h : Host) (res : Resources) (args : List Obj) : KeepsBelow (showOne h res args) :=
  below_bind (below_pure _) fun o => below_bind (below_decodeString h res o) fun t => below_bind (below_addString t) fun _ => below_pure _

theorem below_showEach (h : Host) (res : Resources) : ∀ os, KeepsBelow (showEach h res os)
  | [] => below_pure _
  | o :: os => by
    unfold showEach
    split
    · exact below_bind (below_decodeString h res _) fun t => below_bind (below_addString t) fun _ => below_bind (below_showEach h res os) fun _ => below_pure _
    · exact below_bind (below_decodeString h res _) fun t => below_bind (below_addString t) fun _ => below_bind (below_showEach h res os) fun _ => below_pure _
    · exact below_bind (below_showEach h res os) fun _ => below_pure _

theorem below_showMany (h : Host) (res : Resources) (args : List Obj) : KeepsBelow (showMany h res args) := by
  refine below_bind (below_pure _) fun o => ?_
  split
  · exact below_bind (below_showEach h res _) fun _ => below_pure _
  all_goals exact below_pure _

theorem below_decodeProps (h : Host) (res : Resources) (args : List Obj) : KeepsBelow (decodeProps h res args) := by
  unfold decodeProps
  split
  · split
    · exact below_bind (below_decodeString h res _) fun _ => below_pure _
    · exact below_pure _
  all_goals exact below_pure _

theorem below_applyGs (h : Host) (res : Resources) (args : List Obj) : KeepsBelow (applyGs h res args) := by
  refine below_bind (below_pure _) fun o => below_bind (below_pure _) fun k => below_bind (below_pure _) fun v => ?_
  split
  · exact below_pure _
  · split
    · intro p a p' e
      dsimp only at e
      split at e
      · split at e
        · cases e
        · split at e
          · cases e
          · split at e
            · cases e
            · split at e
              · rename_i hg
                exact absurd hg (ensure_ne _)
              · rename_i g gs hg
                cases e
                exact sameBelow_head hg
      · cases e
    · exact below_pure _

theorem below_onOperator (h : Host) (res : Resources) (onDo : List Obj → DM Paint Unit) (hdo : ∀ args, KeepsBelow (onDo args)) (name : Bytes) (args : List Obj)
    (h1 : name ≠ b!"q") (h2 : name ≠ b!"Q") : KeepsBelow (onOperator h res onDo name args) := by
  have first : ∀ k, KeepsBelow (keep args ((DM.pure (arg0 args)).bind fun o => setField k (.atom o))) := fun k =>
    below_keep args (below_bind (below_pure _) fun o => below_setField k _)
  unfold onOperator
  rw [if_neg h1, if_neg h2]
  refine below_ite (below_keep args (below_setField _ _)) ?_
  refine below_ite (first _) ?_
  refine below_ite (first _) ?_
  refine below_ite (first _) ?_
  refine below_ite (first _) ?_
  refine below_ite (below_keep args (below_setField _ _)) ?_
  refine below_ite (first _) ?_
  refine below_ite (first _) ?_
  refine below_ite (below_keep args (below_applyGs h res args)) ?_
  refine below_ite (below_keep args (by intro p a p' e; cases e; exact .refl _)) ?_
  refine below_ite (below_keep args (by intro p a p' e; cases e; exact .refl _)) ?_
  refine below_ite (below_keep args (below_setField _ _)) ?_
  refine below_ite (below_showOne h res args) ?_
  refine below_ite (below_showMany h res args) ?_
  refine below_ite (below_decodeProps h res args) ?_
  refine below_ite (below_keep args (hdo args)) ?_
  refine below_ite (below_keep args (by intro p a p' e; cases e; exact .refl _)) ?_
  exact below_ite (below_pure _) (below_keep args (below_pure _))

/-- Saving, something which keeps what is below, and restoring. -/
theorem saved_restored {α : Type} {m : DM Paint α} (hm : KeepsBelow m) {p p' : Paint} {a : α}
    (h : (saveState.bind fun _ => m.bind fun a => restoreState.bind fun _ => DM.pure (.ok a)) p = (.ok a, p')) : p'.gss = ensureState p.gss := by
  obtain ⟨_, s1, e1, e2⟩ := DM.bind_ok h
  obtain ⟨b, s2, e3, e4⟩ := DM.bind_ok e2
  obtain ⟨_, s3, e5, e6⟩ := DM.bind_ok e4
  obtain ⟨g, hg, _⟩ := save_ok e1
  have hk := hm _ _ _ e3
  cases e5
  cases e6
  show s2.gss.tail = _
  have hn : s2.gss ≠ [] := hk.1 (by rw [hg]; simp)
  have := hk.2
  rw [ensure_of_ne hn, hg, ensure_of_ne (by simp)] at this
  exact this

theorem notifyAll_append (h : Host) (res : Resources) (onDo : List Obj → DM Paint Unit) (onNav : DM Paint Unit) : ∀ (cs ds : List Content) (p p' : Paint) (u : Unit),
    notifyAll h res onDo onNav (cs ++ ds) p = (.ok u, p') → ∃ p1, notifyAll h res onDo onNav cs p = (.ok (), p1) ∧ notifyAll h res onDo onNav ds p1 = (.ok u, p')
  | [], ds, p, p', u, e => ⟨p, rfl, e⟩
  | .op name args :: cs, ds, p, p', u, e => by
    obtain ⟨_, s1, e1, e2⟩ := DM.bind_ok e
    obtain ⟨p1, i1, i2⟩ := notifyAll_append h res onDo onNav cs ds s1 p' u e2
    exact ⟨p1, by unfold notifyAll; rw [DM.bind_eq e1]; exact i1, i2⟩
  | .image d data :: cs, ds, p, p', u, e => by
    obtain ⟨_, s1, e1, e2⟩ := DM.bind_ok e
    obtain ⟨p1, i1, i2⟩ := notifyAll_append h res onDo onNav cs ds s1 p' u e2
    exact ⟨p1, by unfold notifyAll; rw [DM.bind_eq e1]; exact i1, i2⟩

theorem alias_q {name : Bytes} (h : aliasOf name = b!"q") : name = b!"q" := by
  unfold aliasOf at h
  split at h
  · exact absurd h (by decide)
  · split at h
    · exact absurd h (by decide)
    · split at h
      · exact absurd h (by decide)
      · exact h

theorem alias_Q {name : Bytes} (h : aliasOf name = b!"Q") : name = b!"Q" := by
  unfold aliasOf at h
  split at h
  · exact absurd h (by decide)
  · split at h
    · exact absurd h (by decide)
    · split at h
      · exact absurd h (by decide)
      · exact h

/-- Do: the stack is the same afterwards. -/
theorem notifyDo (h : Host) (res : Resources) (onDo : List Obj → DM Paint Unit) (hdo : ∀ args, KeepsBelow (onDo args)) (onNav : DM Paint Unit) (args : List Obj)
    (p p' : Paint) (u : Unit) (e : notifyOp h res onDo onNav b!"Do" args p = (.ok u, p')) : p'.gss = ensureState p.gss := by
  obtain ⟨_, s1, e1, e2⟩ := DM.bind_ok e
  obtain ⟨b, s2, e3, e4⟩ := DM.bind_ok e2
  obtain ⟨_, s3, e5, e6⟩ := DM.bind_ok e4
  have e1' : saveState p = (.ok (), s1) := e1
  have e5' : restoreState s2 = (.ok (), s3) := e5
  have := saved_restored (below_onOperator h res onDo hdo b!"Do" args (by decide) (by decide)) (p := p) (a := b) (p' := s3)
    (by rw [DM.bind_eq e1']; show ((onOperator h res onDo b!"Do" args).bind _) s1 = _; rw [DM.bind_eq (show onOperator h res onDo b!"Do" args s1 = _ from e3), DM.bind_eq e5']; rfl)
  have e7 : p'.gss = s3.gss := by
    unfold addText at e6
    split at e6
    · cases e6
    · cases e6; rfl
  rw [e7, this]

/-- One operator other than q, Q and `navigate`. -/
theorem below_notifyOp (h : Host) (res : Resources) (onDo : List Obj → DM Paint Unit) (hdo : ∀ args, KeepsBelow (onDo args)) (onNav : DM Paint Unit)
    (name : Bytes) (args : List Obj) (h1 : name ≠ b!"q") (h2 : name ≠ b!"Q") (h3 : name = b!"navigate" → KeepsBelow onNav) : KeepsBelow (notifyOp h res onDo onNav name args) := by
  by_cases hd : name = b!"Do"
  · subst hd
    intro p u p' e
    have := notifyDo h res onDo hdo onNav args p p' u e
    rw [this]
    exact sameBelow_ensure _
  · have ad : aliasOf name ≠ b!"Do" := by
      intro ha
      unfold aliasOf at ha
      split at ha
      · exact absurd ha (by decide)
      · split at ha
        · exact absurd ha (by decide)
        · split at ha
          · exact absurd ha (by decide)
          · exact hd ha
    have an : aliasOf name = b!"navigate" → name = b!"navigate" := by
      intro ha
      unfold aliasOf at ha
      split at ha
      · exact absurd ha (by decide)
      · split at ha
        · exact absurd ha (by decide)
        · split at ha
          · exact absurd ha (by decide)
          · exact ha
    unfold notifyOp
    rw [if_neg ad]
    refine below_bind (below_pure _) fun _ => below_bind (below_onOperator h res onDo hdo _ args (fun e => h1 (alias_q e)) (fun e => h2 (alias_Q e))) fun b => ?_
    rw [if_neg ad]
    refine below_bind ?_ fun _ => below_addText _
    split
    · rename_i ha
      exact h3 (an ha)
    · split
      · exact below_addText _
      · exact below_pure _

theorem below_notifyImage (d : List (Bytes × Obj)) (data : Bytes) : KeepsBelow (notifyImage d data) := by
  intro p a p' e
  exact below_addText (printObj (.image d data)) { p with canvas := { p.canvas with inline := p.canvas.inline ++ [.image d data] } } a p' e

/-- q and Q with something between which keeps what is below. -/
theorem notifyGroup (h : Host) (res : Resources) (onDo : List Obj → DM Paint Unit) (onNav : DM Paint Unit) (a b : List Obj) (cs : List Content)
    (hc : KeepsBelow (notifyAll h res onDo onNav cs)) (p p' : Paint) (u : Unit)
    (e : notifyAll h res onDo onNav (.op b!"q" a :: (cs ++ [.op b!"Q" b])) p = (.ok u, p')) : p'.gss = ensureState p.gss := by
  obtain ⟨_, s1, e1, e2⟩ := DM.bind_ok e
  obtain ⟨s2, e3, e4⟩ := notifyAll_append h res onDo onNav cs _ s1 p' u e2
  obtain ⟨_, s3, e5, e6⟩ := DM.bind_ok e4
  cases e6
  have ht : ∀ {r : Res Text} {q q' : Paint} {u : Unit}, addText r q = (.ok u, q') → q'.gss = q.gss := by
    intro r q q' u h
    unfold addText at h
    split at h
    · cases h
    · cases h; rfl
  have hs : ∃ g, s1.gss = g :: ensureState p.gss := by
    obtain ⟨_, t1, f1, f2⟩ := DM.bind_ok e1
    cases f1
    obtain ⟨_, t2, f3, f4⟩ := DM.bind_ok f2
    obtain ⟨_, t3, f5, f6⟩ := DM.bind_ok f4
    cases f5
    obtain ⟨_, t4, f7, f8⟩ := DM.bind_ok (show keep a saveState p = _ from f3)
    cases f8
    obtain ⟨g, hg, _⟩ := save_ok f7
    exact ⟨g, by rw [ht f6, hg]⟩
  have hr : p'.gss = s2.gss.tail := by
    obtain ⟨_, t1, f1, f2⟩ := DM.bind_ok e5
    cases f1
    obtain ⟨_, t2, f3, f4⟩ := DM.bind_ok f2
    obtain ⟨_, t3, f5, f6⟩ := DM.bind_ok f4
    cases f5
    obtain ⟨_, t4, f7, f8⟩ := DM.bind_ok (show keep b restoreState s2 = _ from f3)
    cases f8
    cases f7
    rw [ht f6]
  obtain ⟨g, hg⟩ := hs
  have hk := hc _ _ _ e3
  have hn : s2.gss ≠ [] := hk.1 (by rw [hg]; simp)
  have := hk.2
  rw [ensure_of_ne hn, hg, ensure_of_ne (by simp)] at this
  rw [hr, this]
  rfl

theorem below_balanced (h : Host) (res : Resources) (onDo : List Obj → DM Paint Unit) (hdo : ∀ args, KeepsBelow (onDo args)) (onNav : DM Paint Unit)
    {cs : List Content} (hb : Balanced cs) : (∀ args, .op b!"navigate" args ∈ cs → KeepsBelow onNav) → KeepsBelow (notifyAll h res onDo onNav cs) := by
  induction hb with
  | nil => exact fun _ => below_pure _
  | image d data => exact fun _ => below_bind (below_notifyImage d data) fun _ => below_pure _
  | op name args h1 h2 =>
    intro hn
    exact below_bind (below_notifyOp h res onDo hdo onNav name args h1 h2 (fun e => hn args (by rw [e]; simp))) fun _ => below_pure _
  | group a b cs _ ih =>
    intro hn p u p' e
    have := notifyGroup h res onDo onNav a b cs (ih fun args hm => hn args (by simp [hm])) p p' u e
    rw [this]
    exact sameBelow_ensure _
  | append cs ds _ _ ih1 ih2 =>
    intro hn p u p' e
    obtain ⟨p1, e1, e2⟩ := notifyAll_append h res onDo onNav cs ds p p' u e
    exact (ih1 (fun args hm => hn args (by simp [hm])) _ _ _ e1).trans (ih2 (fun args hm => hn args (by simp [hm])) _ _ _ e2)

theorem below_renderForm (h : Host) (r : Resources) (s name : Bytes) (hb : Balanced (contentObjects s).1) : KeepsBelow (renderForm h r s name) := by
  intro p u p' e
  unfold renderForm at e
  have hk := below_balanced h r (fun _ => DM.pure (.ok ())) (fun _ => below_pure _) (DM.pure (.ok ())) hb (fun _ _ => below_pure _)
  have hs : KeepsBelow (renderStream h r (fun _ => DM.pure (.ok ())) (DM.pure (.ok ())) s) := by
    refine below_bind hk fun _ => ?_
    split <;> exact below_pure _
  split at e
  · cases e
  · rename_i q hq
    cases e
    exact hs { gss := p.gss } _ q hq

theorem lookup_resource {res : Resources} {cat name : Bytes} {x : Val} (h : lookupResource res cat (some name) = .ok (some x)) :
    resource res cat name = some x := by
  unfold lookupResource at h
  unfold resource
  split at h
  · rename_i es he
    rw [he]
    injection h
  · cases h
  · cases h
  · cases h

theorem below_onDoPage (h : Host) (res : Resources) (hf : FormsBalanced h res) (args : List Obj) : KeepsBelow (onDoPage h res args) := by
  unfold onDoPage
  refine below_bind (below_pure _) fun o => below_bind (below_pure _) fun k => ?_
  intro p u p' e
  obtain ⟨v, s1, e1, e2⟩ := DM.bind_ok e
  unfold DM.pure at e1
  injection e1 with e1 e1'
  subst e1'
  split at e2
  · rename_i name x
    unfold paintXObject at e2
    split at e2
    · split at e2
      · cases e2; exact .refl _
      · split at e2
        · cases e2; exact .refl _
        · split at e2
          · rename_i hform
            split at e2
            · cases e2
            · split at e2
              · cases e2
              · rename_i s hs
                have hx : ∃ es d, x = .stream b!"Form" es d := by
                  cases x with
                  | stream cls es d => exact ⟨es, d, by rw [eq_of_beq (show (cls == b!"Form") = true from hform)]⟩
                  | _ => cases hform
                obtain ⟨es, d, rfl⟩ := hx
                exact below_renderForm h _ s name (hf name es d s (lookup_resource e1) hs) _ _ _ e2
          · cases e2; exact .refl _
    · cases e2; exact .refl _
  · exact below_pure _ _ _ _ e2

end PdfReader
