/-
  C112: parameters of the graphics state.
-/
import Verif.Spec.State
import Verif.Lemmas.Painted
import Verif.Props.Viewer

namespace PdfReader

open Spec

/-- The values of a parameter in the states of the stack, the current one first. -/
def valuesOf (k : Bytes) (gss : List GState) : List (Option Val) := if gss = [] then [none] else gss.map (assoc k)

theorem values_ensure (k : Bytes) (gss : List GState) : valuesOf k gss = (ensureState gss).map (assoc k) := by
  unfold valuesOf ensureState
  split <;> rfl

theorem values_ensured (k : Bytes) (gss : List GState) : valuesOf k (ensureState gss) = valuesOf k gss := by
  rw [values_ensure, values_ensure, ensure_idem]

theorem values_cons (k : Bytes) (g : GState) (gs : List GState) : valuesOf k (g :: gs) = assoc k g :: gs.map (assoc k) := rfl

/-- Computations which leave the parameter as it is. -/
def Fixes {α : Type} (k : Bytes) (m : DM Paint α) : Prop := ∀ p a p', m p = (.ok a, p') → valuesOf k p'.gss = valuesOf k p.gss

theorem fixes_pure {α : Type} (k : Bytes) (r : Res α) : Fixes k (DM.pure r : DM Paint α) := by
  intro p a p' h
  unfold DM.pure at h
  cases h
  rfl

theorem fixes_bind {α β : Type} {k : Bytes} {m : DM Paint α} {f : α → DM Paint β} (h1 : Fixes k m) (h2 : ∀ a, Fixes k (f a)) : Fixes k (m.bind f) := by
  intro p b p' h
  obtain ⟨a, s1, e1, e2⟩ := DM.bind_ok h
  exact (h2 a _ _ _ e2).trans (h1 _ _ _ e1)

theorem fixes_ite {α : Type} {k : Bytes} {c : Prop} [Decidable c] {a b : DM Paint α} (h1 : c → Fixes k a) (h2 : ¬ c → Fixes k b) : Fixes k (if c then a else b) := by
  split
  · exact h1 ‹_›
  · exact h2 ‹_›

theorem fixes_keep {k : Bytes} (args : List Obj) {m : DM Paint Unit} (h : Fixes k m) : Fixes k (keep args m) := fixes_bind h fun _ => fixes_pure _ _

theorem fixes_setField {k k' : Bytes} (hk : k ≠ k') (v : Val) : Fixes k (setField k' v) := by
  intro p a p' h
  obtain ⟨g, gs, e, he⟩ := setField_ok k' v p
  rw [he] at h
  cases h
  rw [values_cons, assoc_set, if_neg (fun e => hk e.symm), values_ensure, e]
  rfl

theorem fixes_addText (k : Bytes) (r : Res Text) : Fixes k (addText r) := by
  intro p a p' h
  unfold addText at h
  cases r with
  | error e => cases h
  | ok t => cases h; rfl

theorem fixes_addString (k : Bytes) (t : Text) : Fixes k (addString t) := by
  intro p a p' h; cases h; rfl

theorem fixes_decodeString (k : Bytes) (h : Host) (res : Resources) (o : Obj) : Fixes k (decodeString h res o) := by
  intro p a p' e
  unfold decodeString at e
  dsimp only at e
  split at e
  · cases e
  · split at e
    · injection e with _ e; subst e; exact values_ensured _ _
    · split at e
      · cases e
      · injection e with _ e; subst e; exact values_ensured _ _

theorem fixes_showOne (k : Bytes) (h : Host) (res : Resources) (args : List Obj) : Fixes k (showOne h res args) :=
  fixes_bind (fixes_pure _ _) fun o => fixes_bind (fixes_decodeString k h res o) fun t => fixes_bind (fixes_addString k t) fun _ => fixes_pure _ _

theorem fixes_showEach (k : Bytes) (h : Host) (res : Resources) : ∀ os, Fixes k (showEach h res os)
  | [] => fixes_pure _ _
  | o :: os => by
    unfold showEach
    split
    · exact fixes_bind (fixes_decodeString k h res _) fun t => fixes_bind (fixes_addString k t) fun _ => fixes_bind (fixes_showEach k h res os) fun _ => fixes_pure _ _
    · exact fixes_bind (fixes_decodeString k h res _) fun t => fixes_bind (fixes_addString k t) fun _ => fixes_bind (fixes_showEach k h res os) fun _ => fixes_pure _ _
    · exact fixes_bind (fixes_showEach k h res os) fun _ => fixes_pure _ _

theorem fixes_showMany (k : Bytes) (h : Host) (res : Resources) (args : List Obj) : Fixes k (showMany h res args) := by
  refine fixes_bind (fixes_pure _ _) fun o => ?_
  split
  · exact fixes_bind (fixes_showEach k h res _) fun _ => fixes_pure _ _
  all_goals exact fixes_pure _ _

theorem fixes_decodeProps (k : Bytes) (h : Host) (res : Resources) (args : List Obj) : Fixes k (decodeProps h res args) := by
  unfold decodeProps
  split
  · split
    · exact fixes_bind (fixes_decodeString k h res _) fun _ => fixes_pure _ _
    · exact fixes_pure _ _
  all_goals exact fixes_pure _ _

/-- An operator which does not set the parameter leaves it. -/
theorem fixes_onOperator {k : Bytes} (hk : k ∈ parameters) (h : Host) (res : Resources) (onDo : List Obj → DM Paint Unit) (name : Bytes) (args : List Obj)
    (h1 : name ≠ b!"q") (h2 : name ≠ b!"Q") (h3 : name ≠ b!"gs") (h4 : name ≠ b!"Do") (n1 : (name, k) ∉ settersOfOne) (n2 : (name, k) ∉ settersOfAll)
    (n3 : (name, k) ≠ (b!"cm", b!"CTM")) : Fixes k (onOperator h res onDo name args) := by
  have first : ∀ k', k ≠ k' → Fixes k (keep args ((DM.pure (arg0 args)).bind fun o => setField k' (.atom o))) := fun k' hk' =>
    fixes_keep args (fixes_bind (fixes_pure _ _) fun o => fixes_setField hk' _)
  unfold onOperator
  dsimp only
  rw [if_neg h1, if_neg h2, if_neg h3, if_neg h4]
  refine fixes_ite (fun e => fixes_keep args (fixes_setField (fun e' => n3 (by rw [e, e'])) _)) fun _ => ?_
  refine fixes_ite (fun e => first _ fun e' => n1 (by rw [e, e']; decide)) fun _ => ?_
  refine fixes_ite (fun e => first _ fun e' => n1 (by rw [e, e']; decide)) fun _ => ?_
  refine fixes_ite (fun e => first _ fun e' => n1 (by rw [e, e']; decide)) fun _ => ?_
  refine fixes_ite (fun e => first _ fun e' => n1 (by rw [e, e']; decide)) fun _ => ?_
  refine fixes_ite (fun e => fixes_keep args (fixes_setField (fun e' => n2 (by rw [e, e']; decide)) _)) fun _ => ?_
  refine fixes_ite (fun e => first _ fun e' => n1 (by rw [e, e']; decide)) fun _ => ?_
  refine fixes_ite (fun e => first _ fun e' => by rw [e'] at hk; revert hk; decide) fun _ => ?_
  refine fixes_ite (fun _ => fixes_keep args (by intro p a p' e; cases e; rfl)) fun _ => ?_
  refine fixes_ite (fun _ => fixes_keep args (by intro p a p' e; cases e; rfl)) fun _ => ?_
  refine fixes_ite (fun e => fixes_keep args (fixes_setField (fun e' => n2 (by rw [e, e']; decide)) _)) fun _ => ?_
  refine fixes_ite (fun _ => fixes_showOne k h res args) fun _ => ?_
  refine fixes_ite (fun _ => fixes_showMany k h res args) fun _ => ?_
  refine fixes_ite (fun _ => fixes_decodeProps k h res args) fun _ => ?_
  refine fixes_ite (fun _ => fixes_keep args (by intro p a p' e; cases e; rfl)) fun _ => ?_
  exact fixes_ite (fun _ => fixes_pure _ _) (fun _ => fixes_keep args (fixes_pure _ _))

theorem alias_cases (name : Bytes) : aliasOf name = name ∨ aliasOf name ∈ [b!"apostrophe", b!"quotation", b!"Tstar"] := by
  unfold aliasOf
  split
  · exact .inr (by decide)
  · split
    · exact .inr (by decide)
    · split
      · exact .inr (by decide)
      · exact .inl rfl

theorem alias_other {name : Bytes} {P : Bytes → Prop} (h : P name) (hp : ∀ n ∈ [b!"apostrophe", b!"quotation", b!"Tstar"], P n) : P (aliasOf name) := by
  rcases alias_cases name with e | e
  · rwa [e]
  · exact hp _ e

/-- A command whose word has a rule: what happens between the saving and the printing. -/
theorem notify_inner {h : Host} {res : Resources} {onDo : List Obj → DM Paint Unit} {onNav : DM Paint Unit} {name : Bytes} {args : List Obj} {p p' : Paint} {u : Unit}
    (e : notifyOp h res onDo onNav name args p = (.ok u, p')) (hd : aliasOf name ≠ b!"Do") (hn : aliasOf name ≠ b!"navigate") :
    ∃ b p1, onOperator h res onDo (aliasOf name) args p = (.ok b, p1) ∧ p'.gss = p1.gss := by
  unfold notifyOp at e
  rw [if_neg hd] at e
  obtain ⟨_, s1, e1, e2⟩ := DM.bind_ok e
  cases e1
  obtain ⟨b, s2, e3, e4⟩ := DM.bind_ok e2
  obtain ⟨_, s3, e5, e6⟩ := DM.bind_ok e4
  have ht : ∀ {r : Res Text} {q q' : Paint} {u : Unit}, addText r q = (.ok u, q') → q'.gss = q.gss := by
    intro r q q' u h
    unfold addText at h
    split at h
    · cases h
    · cases h; rfl
  refine ⟨b, s2, e3, (ht e6).trans ?_⟩
  rw [if_neg hd, if_neg hn] at e5
  split at e5
  · exact ht e5
  · cases e5; rfl

theorem values_some {k : Bytes} {gss : List GState} {x : Option Val} {xs : List (Option Val)} (h : valuesOf k gss = x :: xs) :
    ∃ g gs, ensureState gss = g :: gs ∧ assoc k g = x ∧ gs.map (assoc k) = xs := by
  rw [values_ensure] at h
  cases he : ensureState gss with
  | nil => exact absurd he (ensure_ne _)
  | cons g gs => rw [he] at h; cases h; exact ⟨g, gs, rfl, rfl, rfl⟩

theorem set_values {k : Bytes} {v : Val} {p p' : Paint} {u : Unit} {x : Option Val} {xs : List (Option Val)} (hv : valuesOf k p.gss = x :: xs)
    (h : setField k v p = (.ok u, p')) : valuesOf k p'.gss = some v :: xs := by
  obtain ⟨g, gs, e, he⟩ := setField_ok k v p
  obtain ⟨g', gs', e', _, h2⟩ := values_some hv
  rw [e] at e'
  cases e'
  rw [he] at h
  cases h
  rw [values_cons, assoc_set, if_pos rfl, h2]

theorem keep_ok {args : List Obj} {m : DM Paint Unit} {p p' : Paint} {b : List Arg} (h : keep args m p = (.ok b, p')) : m p = (.ok (), p') := by
  obtain ⟨_, s, e1, e2⟩ := DM.bind_ok h
  cases e2
  exact e1

theorem sets_values {k name : Bytes} {args : List Obj} {x y : Option Val} (hs : Sets k name args x y) {h : Host} {res : Resources} {onDo : List Obj → DM Paint Unit}
    {p p' : Paint} {b : List Arg} {xs : List (Option Val)} (hv : valuesOf k p.gss = x :: xs) (e : onOperator h res onDo name args p = (.ok b, p')) :
    valuesOf k p'.gss = y :: xs := by
  cases hs with
  | one _ o rest _ hm =>
    simp only [settersOfOne, List.mem_cons, Prod.mk.injEq, List.not_mem_nil, or_false] at hm
    rcases hm with ⟨rfl, rfl⟩ | ⟨rfl, rfl⟩ | ⟨rfl, rfl⟩ | ⟨rfl, rfl⟩ | ⟨rfl, rfl⟩ <;> exact set_values hv (keep_ok e)
  | all _ _ _ hm =>
    simp only [settersOfAll, List.mem_cons, Prod.mk.injEq, List.not_mem_nil, or_false] at hm
    rcases hm with ⟨rfl, rfl⟩ | ⟨rfl, rfl⟩ <;> exact set_values hv (keep_ok e)
  | matrix _ hk => subst hk; exact set_values hv (keep_ok e)

theorem update_fix {items : List (Bytes × Val)} {k : Bytes} (h : assoc k items = none ∨ assoc k items = some (.atom .null)) : ∀ (fs : List Bytes) (g : GState),
    assoc k (updateState items fs g) = assoc k g
  | [], _ => rfl
  | f :: fs, g => by
    unfold updateState
    split
    · exact update_fix h fs g
    · exact update_fix h fs g
    · rename_i v e1 e2
      rw [update_fix h fs, assoc_set, if_neg]
      rintro rfl
      rcases h with h | h
      · rw [h] at e2; cases e2
      · rw [h] at e2; cases e2; exact e1 rfl

theorem update_sets {items : List (Bytes × Val)} {k : Bytes} {v : Val} (h : assoc k items = some v) (hv : v ≠ .atom .null) : ∀ (fs : List Bytes) (g : GState),
    k ∈ fs ∨ assoc k g = some v → assoc k (updateState items fs g) = some v
  | [], g, hk => by
    rcases hk with hk | hk
    · cases hk
    · exact hk
  | f :: fs, g, hk => by
    have next : ∀ (w : Val), assoc f items = some w → k ∈ fs ∨ assoc k (assocSet f w g) = some v := by
      intro w hw
      rw [assoc_set]
      by_cases hf : k = f
      · subst hf
        rw [h] at hw
        cases hw
        exact .inr (if_pos rfl)
      · rw [if_neg (fun e => hf e.symm)]
        rcases hk with hk | hk
        · exact .inl ((List.mem_cons.mp hk).resolve_left hf)
        · exact .inr hk
    have same : (assoc f items = none ∨ assoc f items = some (.atom .null)) → k ∈ fs ∨ assoc k g = some v := by
      intro hw
      rcases hk with hk | hk
      · refine .inl ((List.mem_cons.mp hk).resolve_left ?_)
        rintro rfl
        rw [h] at hw
        rcases hw with hw | hw
        · cases hw
        · cases hw; exact hv rfl
      · exact .inr hk
    unfold updateState
    split
    · rename_i e; exact update_sets h hv fs g (same (.inl e))
    · rename_i e; exact update_sets h hv fs g (same (.inr e))
    · rename_i e; exact update_sets h hv fs _ (next _ e)

theorem gs_values {k : Bytes} (hk : k ∈ parameters) {h : Host} {res : Resources} {args : List Obj} {x y : Option Val} (hs : GsSets h res k args x y)
    {p p' : Paint} {u : Unit} {xs : List (Option Val)} (hv : valuesOf k p.gss = x :: xs) (e : applyGs h res args p = (.ok u, p')) :
    valuesOf k p'.gss = y :: xs := by
  have hf : k ∈ stateFields := by
    have : ∀ a ∈ parameters, a ∈ stateFields := by decide
    exact this _ hk
  have look : ∀ (n : Bytes) (r : Option Val), lookupResource res b!"ExtGState" (some n) = .ok r → r = resource res b!"ExtGState" n := by
    intro n r hr
    unfold lookupResource at hr
    unfold resource
    split at hr
    · rename_i es he; cases hr; rw [he]; rfl
    · cases hr
    · rename_i he; cases hr; rw [he]
    · rename_i he; cases hr; rw [he]
  have opened : ∀ (n : Bytes) (rest : List Obj), args = .name n :: rest → lookupResource res b!"ExtGState" (some n) = .ok (resource res b!"ExtGState" n) := by
    rintro n rest rfl
    unfold applyGs at e
    obtain ⟨_, t1, f1, f2⟩ := DM.bind_ok e
    cases f1
    obtain ⟨_, t2, f3, f4⟩ := DM.bind_ok f2
    cases f3
    obtain ⟨r, t3, f5, f6⟩ := DM.bind_ok f4
    have f5' := (Prod.mk.inj f5).1
    rw [f5', look n r f5']
  obtain ⟨g0, gs0, hg0, hx, hxs⟩ := values_some hv
  cases hs with
  | unknown n rest _ hr =>
    have e' := e
    unfold applyGs at e'
    simp only [DM.bind, DM.pure, arg0, strKey, opened n rest rfl, hr] at e'
    cases e'
    exact hv
  | sets n rest _ cls es items v hr hne hi ha hnn =>
    have e' := e
    unfold applyGs at e'
    simp only [DM.bind, DM.pure, arg0, strKey, opened n rest rfl, hr] at e'
    have ht : truthyVal (.dict cls es) = true := by
      cases es with
      | nil => exact absurd rfl hne
      | cons _ _ => rfl
    rw [if_pos ht, hi, hg0] at e'
    dsimp only at e'
    split at e'
    · cases e'
    · split at e'
      · cases e'
      · cases e'
        rw [values_cons, update_sets ha hnn stateFields g0 (.inl hf), hxs]
  | keeps n rest _ cls es items hr hi ha =>
    have e' := e
    unfold applyGs at e'
    simp only [DM.bind, DM.pure, arg0, strKey, opened n rest rfl, hr] at e'
    by_cases ht : truthyVal (.dict cls es) = true
    · rw [if_pos ht, hi, hg0] at e'
      dsimp only at e'
      split at e'
      · cases e'
      · split at e'
        · cases e'
        · cases e'
          rw [values_cons, update_fix ha stateFields g0, hxs, hx]
    · rw [if_neg ht] at e'
      cases e'
      exact hv

theorem save_values {k : Bytes} {p p' : Paint} {u : Unit} {x : Option Val} {xs : List (Option Val)} (hv : valuesOf k p.gss = x :: xs)
    (h : saveState p = (.ok u, p')) : valuesOf k p'.gss = x :: x :: xs := by
  obtain ⟨g, gs, e, h1, h2⟩ := values_some hv
  unfold saveState at h
  rw [e] at h
  dsimp only at h
  split at h
  · cases h
    rw [values_cons, List.map_cons, h1, h2]
  · cases h

theorem restore_values {k : Bytes} {p p' : Paint} {u : Unit} {x y : Option Val} {xs : List (Option Val)} (hv : valuesOf k p.gss = y :: x :: xs)
    (h : restoreState p = (.ok u, p')) : valuesOf k p'.gss = x :: xs := by
  cases h
  show valuesOf k p.gss.tail = _
  obtain ⟨g, gs, e, h1, h2⟩ := values_some hv
  have hne : p.gss ≠ [] := by
    intro e'
    rw [e'] at hv
    cases hv
  rw [ensure_of_ne hne] at e
  rw [e]
  show valuesOf k gs = _
  cases gs with
  | nil => cases h2
  | cons g' gs' => rw [values_cons]; exact h2

theorem alias_same {name : Bytes} (h : name ∈ [b!"q", b!"Q", b!"gs", b!"cm", b!"w", b!"J", b!"j", b!"M", b!"ri", b!"d", b!"Tf"]) :
    aliasOf name = name ∧ name ≠ b!"Do" ∧ name ≠ b!"navigate" := by
  have key : ∀ n ∈ [b!"q", b!"Q", b!"gs", b!"cm", b!"w", b!"J", b!"j", b!"M", b!"ri", b!"d", b!"Tf"], aliasOf n = n ∧ n ≠ b!"Do" ∧ n ≠ b!"navigate" := by decide
  exact key _ h

theorem sets_known {k name : Bytes} {args : List Obj} {x y : Option Val} (hs : Sets k name args x y) :
    name ∈ [b!"q", b!"Q", b!"gs", b!"cm", b!"w", b!"J", b!"j", b!"M", b!"ri", b!"d", b!"Tf"] := by
  cases hs with
  | one _ o rest _ hm =>
    simp only [settersOfOne, List.mem_cons, Prod.mk.injEq, List.not_mem_nil, or_false] at hm
    rcases hm with ⟨rfl, rfl⟩ | ⟨rfl, rfl⟩ | ⟨rfl, rfl⟩ | ⟨rfl, rfl⟩ | ⟨rfl, rfl⟩ <;> decide
  | all _ _ _ hm =>
    simp only [settersOfAll, List.mem_cons, Prod.mk.injEq, List.not_mem_nil, or_false] at hm
    rcases hm with ⟨rfl, rfl⟩ | ⟨rfl, rfl⟩ <;> decide
  | matrix _ hk => decide

/-- C112: at every moment of rendering, the parameters of the states on the stack are those which the commands up to then have set. -/
theorem C112_during_partial {k : Bytes} (hk : k ∈ parameters) (h : Host) (res : Resources) (hf : FormsBalanced h res) {xs ys : List (Option Val)} {cs : List Content}
    (hs : StateRun h res k xs cs ys) : ∀ (p p' : Paint), valuesOf k p.gss = xs → notifyAll h res (onDoPage h res) resetPaint cs p = (.ok (), p') →
      valuesOf k p'.gss = ys := by
  induction hs with
  | done xs => intro p p' hv e; cases e; exact hv
  | image d data xs ys cs _ ih =>
    intro p p' hv e
    obtain ⟨_, p1, e1, e2⟩ := DM.bind_ok e
    exact ih p1 p' ((fixes_addText k _ _ _ _ e1).trans hv) e2
  | save args x xs ys cs _ ih =>
    intro p p' hv e
    obtain ⟨_, p1, e1, e2⟩ := DM.bind_ok e
    obtain ⟨b, p2, e3, e4⟩ := notify_inner e1 (by decide) (by decide)
    exact ih p1 p' (by rw [e4]; exact save_values hv (keep_ok e3)) e2
  | restore args x y xs ys cs _ ih =>
    intro p p' hv e
    obtain ⟨_, p1, e1, e2⟩ := DM.bind_ok e
    obtain ⟨b, p2, e3, e4⟩ := notify_inner e1 (by decide) (by decide)
    exact ih p1 p' (by rw [e4]; exact restore_values hv (keep_ok e3)) e2
  | set name args x y xs ys cs hset _ ih =>
    intro p p' hv e
    obtain ⟨_, p1, e1, e2⟩ := DM.bind_ok e
    obtain ⟨ha, hd, hn⟩ := alias_same (sets_known hset)
    obtain ⟨b, p2, e3, e4⟩ := notify_inner e1 (by rw [ha]; exact hd) (by rw [ha]; exact hn)
    rw [ha] at e3
    exact ih p1 p' (by rw [e4]; exact sets_values hset hv e3) e2
  | dict args x y xs ys cs hg _ ih =>
    intro p p' hv e
    obtain ⟨_, p1, e1, e2⟩ := DM.bind_ok e
    obtain ⟨b, p2, e3, e4⟩ := notify_inner e1 (by decide) (by decide)
    exact ih p1 p' (by rw [e4]; exact gs_values hk hg hv (keep_ok e3)) e2
  | other name args xs ys cs hm n1 n2 n3 _ ih =>
    intro p p' hv e
    obtain ⟨_, p1, e1, e2⟩ := DM.bind_ok e
    simp only [List.mem_cons, List.not_mem_nil, or_false, not_or] at hm
    obtain ⟨m1, m2, m3, m4⟩ := hm
    by_cases hd : name = b!"Do"
    · subst hd
      have := notifyDo h res _ (below_onDoPage h res hf) _ args p p1 () e1
      exact ih p1 p' (by rw [this, values_ensured]; exact hv) e2
    · obtain ⟨b, p2, e3, e4⟩ := notify_inner e1 (alias_other (P := fun n => n ≠ b!"Do") hd (by decide)) (alias_other (P := fun n => n ≠ b!"navigate") m4 (by decide))
      have hno : ∀ n ∈ [b!"apostrophe", b!"quotation", b!"Tstar"], n ∉ settersOfOne.map (·.1) ∧ n ∉ settersOfAll.map (·.1) ∧ n ≠ b!"cm" := by decide
      refine ih p1 p' ?_ e2
      rw [e4]
      refine (fixes_onOperator hk h res _ _ args (alias_other (P := fun n => n ≠ b!"q") m1 (by decide)) (alias_other (P := fun n => n ≠ b!"Q") m2 (by decide))
        (alias_other (P := fun n => n ≠ b!"gs") m3 (by decide)) (alias_other (P := fun n => n ≠ b!"Do") hd (by decide))
        (alias_other (P := fun n => (n, k) ∉ settersOfOne) n1 fun n hn hm => (hno n hn).1 (List.mem_map_of_mem hm))
        (alias_other (P := fun n => (n, k) ∉ settersOfAll) n2 fun n hn hm => (hno n hn).2.1 (List.mem_map_of_mem hm))
        (alias_other (P := fun n => (n, k) ≠ (b!"cm", b!"CTM")) n3 fun n hn hm => (hno n hn).2.2 (Prod.mk.inj hm).1) p b p2 e3).trans hv

/-- C112: when a page has been rendered, the current graphics state has the parameters which its content has set, and so do the states below. -/
theorem C112_parameters_partial {k : Bytes} (hk : k ∈ parameters) (h : Host) (res : Resources) (hf : FormsBalanced h res) (s : Bytes) (cs : List Content)
    (hc : contentObjects s = (cs, none)) {ys : List (Option Val)} (hs : StateRun h res k [none] cs ys) (p : Paint)
    (e : renderPage h res s {} = (.ok (), p)) : (if p.gss = [] then [none] else p.gss.map (assoc k)) = ys := by
  unfold renderPage renderStream at e
  rw [hc] at e
  obtain ⟨_, p1, e1, e2⟩ := DM.bind_ok e
  cases e2
  exact C112_during_partial hk h res hf hs {} p rfl e1

/-- A content which meets this: the line width of the dictionary in the group, then that of w. -/
def stateContent : Bytes := b!"5 w q 2 J /G gs [3 1] 0 d Q 4 M"

/-- Its resources. -/
def stateResources : Resources := [(b!"ExtGState", .named [(b!"G", .dict b!"ExtGState" [(b!"LW", .int 7), (b!"ML", .null)])])]

example : FormsBalanced plainHost stateResources := by
  intro name es d s h
  exact absurd h (by simp [resource, stateResources, assoc])

/-- What it leaves: the commands of the group and the dictionary are undone by Q. -/
theorem state_run : StateRun plainHost stateResources b!"LW" [none] (contentObjects stateContent).1 [some (.atom (.int 5))] := by
  have hc : (contentObjects stateContent).1 = [.op b!"w" [.int 5], .op b!"q" [], .op b!"J" [.int 2], .op b!"gs" [.name b!"G"], .op b!"d" [.arr [.int 3, .int 1], .int 0],
    .op b!"Q" [], .op b!"M" [.int 4]] := by decide +kernel
  rw [hc]
  refine .set _ _ _ (some (.atom (.int 5))) _ _ _ (.one _ _ _ _ (by decide)) (.save _ _ _ _ _ ?_)
  refine .other _ _ _ _ _ (by decide) (by decide) (by decide) (by decide) ?_
  refine .dict _ _ (some (.atom (.int 7))) _ _ _ (.sets _ _ _ b!"ExtGState" [(b!"LW", .int 7), (b!"ML", .null)] [(b!"LW", .atom (.int 7)), (b!"ML", .atom .null)] _ rfl (by decide) rfl rfl (fun e => by cases e)) ?_
  refine .other _ _ _ _ _ (by decide) (by decide) (by decide) (by decide) ?_
  exact .restore _ _ _ _ _ _ (.other _ _ _ _ _ (by decide) (by decide) (by decide) (by decide) (.done _))

example : (renderPage plainHost stateResources stateContent {}).1 = .ok () := by decide +kernel

example : stackAfter plainHost stateResources stateContent [] = .ok [[(b!"LW", .atom (.int 5)), (b!"ML", .atom (.int 4))]] := by decide +kernel

/-- The second matrix replaces the first instead of being concatenated to it. -/
theorem C112_matrix_counterexample : stackAfter plainHost [] b!"2 0 0 2 0 0 cm 3 0 0 3 0 0 cm" [] =
    .ok [[(b!"CTM", .atom (.arr [.int 3, .int 0, .int 0, .int 3, .int 0, .int 0]))]] := by decide +kernel

/-- The flatness tolerance is kept under another name than that of the parameter, so that `state.I` stays None; and the one of a dictionary is dropped. -/
theorem C112_flatness_counterexample : stackAfter plainHost [] b!"50 i" [] = .ok [[(b!"FL", .atom (.int 50))]] ∧
    stackAfter plainHost [(b!"ExtGState", .named [(b!"G", .dict b!"ExtGState" [(b!"FL", .int 7)])])] b!"/G gs" [] = .ok [[]] := by decide +kernel

/-- The operators of the text state set nothing. -/
theorem C112_text_counterexample : stackAfter plainHost [] b!"1 Tc 2 Tw 3 Tz 4 TL 5 Tr 6 Ts" [] = .ok [] := by decide +kernel

end PdfReader
