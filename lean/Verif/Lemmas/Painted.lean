/-
  The images and forms on a canvas.
-/
import Verif.Lemmas.Shows

namespace PdfReader

open Spec

/-- The computation leaves the images and forms of the canvas alone. -/
def Aside {α : Type} (m : DM Paint α) : Prop := ∀ p, (m p).2.canvas.images = p.canvas.images ∧ (m p).2.canvas.forms = p.canvas.forms

theorem aside_pure {α : Type} (r : Res α) : Aside (DM.pure r) := fun _ => ⟨rfl, rfl⟩

theorem aside_bind {α β : Type} {m : DM Paint α} {f : α → DM Paint β} (h1 : Aside m) (h2 : ∀ a, Aside (f a)) : Aside (m.bind f) := by
  intro p
  have e := h1 p
  unfold DM.bind
  generalize m p = r at e ⊢
  obtain ⟨r, s⟩ := r
  cases r with
  | error x => exact e
  | ok a =>
    have := h2 a s
    exact ⟨this.1.trans e.1, this.2.trans e.2⟩

theorem aside_ite {α : Type} {c : Prop} [Decidable c] {a b : DM Paint α} (h1 : Aside a) (h2 : Aside b) : Aside (if c then a else b) := by
  split
  · exact h1
  · exact h2

theorem aside_setField (k : Bytes) (v : Val) : Aside (setField k v) := by
  intro p
  obtain ⟨g, gs, _, e⟩ := setField_ok k v p
  rw [e]
  exact ⟨rfl, rfl⟩

theorem aside_save : Aside saveState := by
  intro p
  unfold saveState
  split
  · exact ⟨rfl, rfl⟩
  · split <;> exact ⟨rfl, rfl⟩

theorem aside_addText (r : Res Text) : Aside (addText r) := by
  intro p
  cases r <;> exact ⟨rfl, rfl⟩

theorem aside_decodeString (h : Host) (res : Resources) (o : Obj) : Aside (decodeString h res o) := by
  intro p
  unfold decodeString
  dsimp only
  split
  · exact ⟨rfl, rfl⟩
  · split
    · exact ⟨rfl, rfl⟩
    · split <;> exact ⟨rfl, rfl⟩

theorem aside_keep (args : List Obj) {m : DM Paint Unit} (h : Aside m) : Aside (keep args m) := aside_bind h fun _ => aside_pure _

theorem aside_addString (t : Text) : Aside (addString t) := fun _ => ⟨rfl, rfl⟩

theorem aside_showOne (h : Host) (res : Resources) (args : List Obj) : Aside (showOne h res args) :=
  aside_bind (aside_pure _) fun o => aside_bind (aside_decodeString h res o) fun t => aside_bind (aside_addString t) fun _ => aside_pure _

theorem aside_showEach (h : Host) (res : Resources) : ∀ os, Aside (showEach h res os)
  | [] => aside_pure _
  | o :: os => by
    unfold showEach
    split
    · exact aside_bind (aside_decodeString h res _) fun t => aside_bind (aside_addString t) fun _ => aside_bind (aside_showEach h res os) fun _ => aside_pure _
    · exact aside_bind (aside_decodeString h res _) fun t => aside_bind (aside_addString t) fun _ => aside_bind (aside_showEach h res os) fun _ => aside_pure _
    · exact aside_bind (aside_showEach h res os) fun _ => aside_pure _

theorem aside_showMany (h : Host) (res : Resources) (args : List Obj) : Aside (showMany h res args) := by
  refine aside_bind (aside_pure _) fun o => ?_
  split
  · exact aside_bind (aside_showEach h res _) fun _ => aside_pure _
  all_goals exact aside_pure _

theorem aside_decodeProps (h : Host) (res : Resources) (args : List Obj) : Aside (decodeProps h res args) := by
  unfold decodeProps
  split
  · split
    · exact aside_bind (aside_decodeString h res _) fun _ => aside_pure _
    · exact aside_pure _
  all_goals exact aside_pure _

theorem aside_applyGs (h : Host) (res : Resources) (args : List Obj) : Aside (applyGs h res args) := by
  refine aside_bind (aside_pure _) fun o => aside_bind (aside_pure _) fun k => aside_bind (aside_pure _) fun v => ?_
  split
  · exact aside_pure _
  · split
    · intro p
      dsimp only
      split
      · split
        · exact ⟨rfl, rfl⟩
        · split
          · exact ⟨rfl, rfl⟩
          · split
            · exact ⟨rfl, rfl⟩
            · split <;> exact ⟨rfl, rfl⟩
      · exact ⟨rfl, rfl⟩
    · exact aside_pure _

theorem aside_onOperator (h : Host) (res : Resources) (onDo : List Obj → DM Paint Unit) (name : Bytes) (args : List Obj) (hd : name ≠ b!"Do") :
    Aside (onOperator h res onDo name args) := by
  have first : ∀ k, Aside (keep args ((DM.pure (arg0 args)).bind fun o => setField k (.atom o))) := fun k =>
    aside_keep args (aside_bind (aside_pure _) fun o => aside_setField k _)
  unfold onOperator
  refine aside_ite (aside_keep args aside_save) ?_
  refine aside_ite (aside_keep args fun _ => ⟨rfl, rfl⟩) ?_
  refine aside_ite (aside_keep args (aside_setField _ _)) ?_
  refine aside_ite (first _) ?_
  refine aside_ite (first _) ?_
  refine aside_ite (first _) ?_
  refine aside_ite (first _) ?_
  refine aside_ite (aside_keep args (aside_setField _ _)) ?_
  refine aside_ite (first _) ?_
  refine aside_ite (first _) ?_
  refine aside_ite (aside_keep args (aside_applyGs h res args)) ?_
  refine aside_ite (aside_keep args fun _ => ⟨rfl, rfl⟩) ?_
  refine aside_ite (aside_keep args fun _ => ⟨rfl, rfl⟩) ?_
  refine aside_ite (aside_keep args (aside_setField _ _)) ?_
  refine aside_ite (aside_showOne h res args) ?_
  refine aside_ite (aside_showMany h res args) ?_
  refine aside_ite (aside_decodeProps h res args) ?_
  rw [if_neg hd]
  refine aside_ite (aside_keep args fun _ => ⟨rfl, rfl⟩) ?_
  exact aside_ite (aside_pure _) (aside_keep args (aside_pure _))

theorem alias_self {name : Bytes} {k : Bytes} (h : aliasOf name = k) (h1 : k ≠ b!"apostrophe") (h2 : k ≠ b!"quotation") (h3 : k ≠ b!"Tstar") : name = k := by
  unfold aliasOf at h
  split at h
  · exact absurd h.symm h1
  · split at h
    · exact absurd h.symm h2
    · split at h
      · exact absurd h.symm h3
      · exact h

theorem aside_notifyOp (h : Host) (res : Resources) (onDo : List Obj → DM Paint Unit) (onNav : DM Paint Unit) (name : Bytes) (args : List Obj) (h1 : name ≠ b!"Do")
    (h2 : name ≠ b!"navigate") : Aside (notifyOp h res onDo onNav name args) := by
  have a1 : aliasOf name ≠ b!"Do" := fun e => h1 (alias_self e (by decide) (by decide) (by decide))
  have a2 : aliasOf name ≠ b!"navigate" := fun e => h2 (alias_self e (by decide) (by decide) (by decide))
  unfold notifyOp
  rw [if_neg a1]
  refine aside_bind (aside_pure _) fun _ => aside_bind (aside_onOperator h res onDo _ args a1) fun b => ?_
  rw [if_neg a1, if_neg a2]
  exact aside_bind (aside_ite (aside_addText _) (aside_pure _)) fun _ => aside_addText _

theorem aside_notifyImage (d : List (Bytes × Obj)) (data : Bytes) : Aside (notifyImage d data) := by
  intro p
  exact aside_addText (printObj (.image d data)) { p with canvas := { p.canvas with inline := p.canvas.inline ++ [.image d data] } }

/-- The canvas after Do is that after painting. -/
theorem do_canvas {h : Host} {res : Resources} {onNav : DM Paint Unit} {args : List Obj} {p p' : Paint} {u : Unit}
    (e : notifyOp h res (onDoPage h res) onNav b!"Do" args p = (.ok u, p')) :
    ∃ q q', q.canvas = p.canvas ∧ onDoPage h res args q = (.ok (), q') ∧ p'.canvas.images = q'.canvas.images ∧ p'.canvas.forms = q'.canvas.forms := by
  obtain ⟨_, s1, e1, e2⟩ := DM.bind_ok e
  obtain ⟨b, s2, e3, e4⟩ := DM.bind_ok e2
  obtain ⟨_, s3, e5, e6⟩ := DM.bind_ok e4
  have e1' : saveState p = (.ok (), s1) := e1
  obtain ⟨g, _, hs⟩ := save_ok e1'
  obtain ⟨_, s4, e7, e8⟩ := DM.bind_ok (show keep args (onDoPage h res args) s1 = _ from e3)
  cases e8
  have e5' : restoreState s2 = (.ok (), s3) := e5
  cases e5'
  refine ⟨s1, s2, ?_, e7, ?_⟩
  · rw [hs]
  · have := aside_addText (printOp b!"Do" (args.map Arg.obj)) { s2 with gss := s2.gss.tail }
    rw [e6] at this
    exact this

/-- What is on a canvas of a page with resources `res`, after painting of the XObjects with the names `N`. -/
structure Painted (res : Resources) (N : Bytes → Prop) (c : Canvas) : Prop where
  images : ∀ n x, assoc n c.images = some x ↔ N n ∧ resource res b!"XObject" n = some x ∧ ∃ es d, x = .stream b!"Image" es d ∧ d ≠ []
  forms : ∀ n, (assoc n c.forms).isSome ↔ N n ∧ ∃ es d, resource res b!"XObject" n = some (.stream b!"Form" es d) ∧ d ≠ []

theorem painted_nothing (res : Resources) : Painted res (fun _ => False) {} :=
  ⟨fun _ _ => ⟨fun h => (by cases h), fun h => h.1.elim⟩, fun _ => ⟨fun h => (by cases h), fun h => h.1.elim⟩⟩

theorem painted_congr {res : Resources} {N M : Bytes → Prop} {c c' : Canvas} (h : Painted res N c) (hN : ∀ n, N n ↔ M n) (h1 : c'.images = c.images) (h2 : c'.forms = c.forms) :
    Painted res M c' :=
  ⟨fun n x => by rw [h1, ← hN n]; exact h.images n x, fun n => by rw [h2, ← hN n]; exact h.forms n⟩

theorem strKey_names {o : Obj} {n : Bytes} : strKey o = .ok (some n) ↔ (o = .name n ∨ o = .hex n ∨ o = .token n) := by
  constructor
  · intro h
    cases o <;> first
      | (simp [strKey, hashable] at h; done)
      | (injection h with h; injection h with h; subst h; simp)
  · rintro (rfl | rfl | rfl) <;> rfl

theorem isSome_assocSet {α : Type} (k n : Bytes) (v : α) (es : List (Bytes × α)) : (assoc n (assocSet k v es)).isSome ↔ (n = k ∨ (assoc n es).isSome) := by
  rw [assoc_set]
  by_cases h : n = k
  · simp [h]
  · rw [if_neg fun e => h e.symm]
    simp [h]

/-- Painting one XObject. -/
theorem painted_do {h : Host} {res : Resources} {N : Bytes → Prop} {args : List Obj} {q q' : Paint} (hq : Painted res N q.canvas) (e : onDoPage h res args q = (.ok (), q')) :
    Painted res (fun n => N n ∨ ∃ o rest, args = o :: rest ∧ (o = .name n ∨ o = .hex n ∨ o = .token n)) q'.canvas := by
  unfold onDoPage at e
  obtain ⟨o, s1, e1, e2⟩ := DM.bind_ok e
  obtain ⟨k, s2, e3, e4⟩ := DM.bind_ok e2
  obtain ⟨v, s3, e5, e6⟩ := DM.bind_ok e4
  unfold DM.pure at e1 e3 e5
  injection e1 with e1 e1'
  injection e3 with e3 e3'
  injection e5 with e5 e5'
  subst e1' e3' e5'
  obtain ⟨rest, ha⟩ : ∃ rest, args = o :: rest := by
    cases args with
    | nil => cases e1
    | cons a as => injection e1 with e1; exact ⟨as, by rw [e1]⟩
  have hN : ∀ n, (∃ o rest, args = o :: rest ∧ (o = .name n ∨ o = .hex n ∨ o = .token n)) ↔ k = some n := by
    intro n
    constructor
    · rintro ⟨o', rest', ha', hn⟩
      rw [ha] at ha'
      injection ha' with ha' _
      rw [← ha'] at hn
      have := strKey_names.mpr hn
      rw [e3] at this
      injection this
    · intro hk
      rw [hk] at e3
      exact ⟨o, rest, ha, strKey_names.mp e3⟩
  have same : (∀ n, k = some n → ∀ cls es d, resource res b!"XObject" n = some (.stream cls es d) → d ≠ [] → (cls = b!"Image" ∨ cls = b!"Form") → N n) →
      q'.canvas = q.canvas → Painted res (fun n => N n ∨ ∃ o rest, args = o :: rest ∧ (o = .name n ∨ o = .hex n ∨ o = .token n)) q'.canvas := by
    intro hold hc
    constructor
    · intro n x
      rw [hc, hq.images, hN]
      constructor
      · rintro ⟨a, b⟩; exact ⟨.inl a, b⟩
      · rintro ⟨a | a, b, es, d, rfl, c⟩
        · exact ⟨a, b, es, d, rfl, c⟩
        · exact ⟨hold n a _ _ _ b c (.inl rfl), b, es, d, rfl, c⟩
    · intro n
      rw [hc, hq.forms, hN]
      constructor
      · rintro ⟨a, b⟩; exact ⟨.inl a, b⟩
      · rintro ⟨a | a, es, d, b, c⟩
        · exact ⟨a, es, d, b, c⟩
        · exact ⟨hold n a _ _ _ b c (.inr rfl), es, d, b, c⟩
  cases k with
  | none =>
    have : q' = q := by
      have : DM.pure (.ok ()) q = (.ok (), q') := e6
      cases this
      rfl
    exact same (fun n hk => by cases hk) (by rw [this])
  | some name =>
    cases v with
    | none =>
      have : q' = q := by
        have : DM.pure (.ok ()) q = (.ok (), q') := e6
        cases this
        rfl
      refine same (fun n hk cls es d hr _ _ => ?_) (by rw [this])
      injection hk with hk
      subst hk
      unfold lookupResource at e5
      unfold resource at hr
      split at e5
      · rename_i es' he
        rw [he] at hr
        injection e5 with e5
        dsimp only at hr
        rw [show assoc name es' = none from e5] at hr
        cases hr
      · cases e5
      · rename_i he; rw [he] at hr; cases hr
      · rename_i he; rw [he] at hr; cases hr
    | some x =>
      have hr := lookup_resource e5
      replace e6 : paintXObject h name x q = (.ok (), q') := e6
      unfold paintXObject at e6
      split at e6
      · rename_i ht
        split at e6
        · rename_i hf
          obtain ⟨a, es, d, b, c⟩ := (hq.forms name).mp hf
          cases e6
          refine same (fun n hk cls es d hr _ _ => ?_) rfl
          injection hk with hk
          subst hk
          exact a
        · rename_i hf
          split at e6
          · rename_i hi
            cases e6
            obtain ⟨es, d, rfl⟩ : ∃ es d, x = .stream b!"Image" es d := by
              cases x with
              | stream cls es d => exact ⟨es, d, by rw [eq_of_beq (show (cls == b!"Image") = true from hi)]⟩
              | _ => cases hi
            have hd : d ≠ [] := by
              intro e
              subst e
              cases ht
            constructor
            · intro n y
              show assoc n (assocSet name _ q.canvas.images) = some y ↔ _
              rw [assoc_set, hN]
              by_cases hn : name = n
              · subst hn
                rw [if_pos rfl]
                constructor
                · intro e; injection e with e; subst e; exact ⟨.inr rfl, hr, es, d, rfl, hd⟩
                · rintro ⟨_, b, _⟩; rw [hr] at b; exact b
              · rw [if_neg hn, hq.images]
                constructor
                · rintro ⟨a, b⟩; exact ⟨.inl a, b⟩
                · rintro ⟨a | a, b⟩
                  · exact ⟨a, b⟩
                  · injection a with a; exact absurd a hn
            · intro n
              show (assoc n q.canvas.forms).isSome ↔ _
              rw [hq.forms, hN]
              constructor
              · rintro ⟨a, b⟩; exact ⟨.inl a, b⟩
              · rintro ⟨a | a, es', d', b, c⟩
                · exact ⟨a, es', d', b, c⟩
                · injection a with a
                  subst a
                  rw [hr] at b
                  cases b
          · rename_i hi
            split at e6
            · rename_i hform
              split at e6
              · cases e6
              · split at e6
                · cases e6
                · obtain ⟨es, d, rfl⟩ : ∃ es d, x = .stream b!"Form" es d := by
                    cases x with
                    | stream cls es d => exact ⟨es, d, by rw [eq_of_beq (show (cls == b!"Form") = true from hform)]⟩
                    | _ => cases hform
                  have hd : d ≠ [] := by
                    intro e
                    subst e
                    cases ht
                  unfold renderForm at e6
                  split at e6
                  · cases e6
                  · cases e6
                    constructor
                    · intro n y
                      show assoc n q.canvas.images = some y ↔ _
                      rw [hq.images, hN]
                      constructor
                      · rintro ⟨a, b⟩; exact ⟨.inl a, b⟩
                      · rintro ⟨a | a, b, es', d', rfl, c⟩
                        · exact ⟨a, b, es', d', rfl, c⟩
                        · injection a with a
                          subst a
                          rw [hr] at b
                          cases b
                    · intro n
                      show (assoc n (assocSet name _ q.canvas.forms)).isSome ↔ _
                      rw [isSome_assocSet, hq.forms, hN]
                      constructor
                      · rintro (rfl | ⟨a, b⟩)
                        · exact ⟨.inr rfl, es, d, hr, hd⟩
                        · exact ⟨.inl a, b⟩
                      · rintro ⟨a | a, b⟩
                        · exact .inr ⟨a, b⟩
                        · injection a with a; exact .inl a.symm
            · rename_i hform
              cases e6
              refine same (fun n hk cls es d hr' _ hcls => ?_) rfl
              injection hk with hk
              subst hk
              rw [hr] at hr'
              injection hr' with hr'
              subst hr'
              rcases hcls with rfl | rfl
              · exact absurd rfl hi
              · exact absurd rfl hform
      · rename_i ht
        cases e6
        refine same (fun n hk cls es d hr' hd _ => ?_) rfl
        injection hk with hk
        subst hk
        rw [hr] at hr'
        injection hr' with hr'
        subst hr'
        cases d with
        | nil => exact absurd rfl hd
        | cons c d => exact absurd rfl ht

theorem painted_all {h : Host} {res : Resources} {onNav : DM Paint Unit} : ∀ (cs : List Content) (N : Bytes → Prop) (p p' : Paint) (u : Unit),
    (∀ args, .op b!"navigate" args ∉ cs) → Painted res N p.canvas → notifyAll h res (onDoPage h res) onNav cs p = (.ok u, p') →
    Painted res (fun n => N n ∨ Paints cs n) p'.canvas
  | [], N, p, p', u, _, hp, e => by
    cases e
    exact painted_congr hp (fun n => ⟨.inl, fun h => h.elim id (fun ⟨_, _, h, _⟩ => by cases h)⟩) rfl rfl
  | .image d data :: cs, N, p, p', u, hn, hp, e => by
    obtain ⟨_, s1, e1, e2⟩ := DM.bind_ok e
    have ha := aside_notifyImage d data p
    rw [e1] at ha
    have := painted_all cs N s1 p' u (fun args hm => hn args (by simp [hm])) (painted_congr hp (fun _ => Iff.rfl) ha.1 ha.2) e2
    refine painted_congr this (fun n => ?_) rfl rfl
    unfold Paints
    simp
  | .op name args :: cs, N, p, p', u, hn, hp, e => by
    obtain ⟨_, s1, e1, e2⟩ := DM.bind_ok e
    have hrest : ∀ args, .op b!"navigate" args ∉ cs := fun args hm => hn args (by simp [hm])
    by_cases hd : name = b!"Do"
    · subst hd
      obtain ⟨q, q', hq, hdo, h1, h2⟩ := do_canvas e1
      have hp' := painted_do (by rw [hq]; exact hp) hdo
      have := painted_all cs _ s1 p' u hrest (painted_congr hp' (fun _ => Iff.rfl) h1 h2) e2
      refine painted_congr this (fun n => ?_) rfl rfl
      constructor
      · rintro ((a | ⟨o, rest, rfl, b⟩) | ⟨o, rest, a, b⟩)
        · exact .inl a
        · exact .inr ⟨o, rest, by simp, b⟩
        · exact .inr ⟨o, rest, by simp [a], b⟩
      · rintro (a | ⟨o, rest, a, b⟩)
        · exact .inl (.inl a)
        · rcases List.mem_cons.mp a with a | a
          · injection a with _ a; exact .inl (.inr ⟨o, rest, a.symm, b⟩)
          · exact .inr ⟨o, rest, a, b⟩
    · have ha := aside_notifyOp h res (onDoPage h res) onNav name args hd (fun e => hn args (by rw [e]; simp)) p
      rw [e1] at ha
      have := painted_all cs N s1 p' u hrest (painted_congr hp (fun _ => Iff.rfl) ha.1 ha.2) e2
      refine painted_congr this (fun n => ?_) rfl rfl
      constructor
      · rintro (a | ⟨o, rest, a, b⟩)
        · exact .inl a
        · exact .inr ⟨o, rest, by simp [a], b⟩
      · rintro (a | ⟨o, rest, a, b⟩)
        · exact .inl a
        · rcases List.mem_cons.mp a with a | a
          · injection a with a _; exact absurd a.symm hd
          · exact .inr ⟨o, rest, a, b⟩

/-- A form stays as it was painted first. -/
theorem forms_stay {h : Host} {res : Resources} {onNav : DM Paint Unit} : ∀ (cs : List Content) (p p' : Paint) (u : Unit) (n : Bytes) (c : Canvas),
    (∀ args, .op b!"navigate" args ∉ cs) → assoc n p.canvas.forms = some c → notifyAll h res (onDoPage h res) onNav cs p = (.ok u, p') →
    assoc n p'.canvas.forms = some c
  | [], p, p', u, n, c, _, hp, e => by cases e; exact hp
  | .image d data :: cs, p, p', u, n, c, hn, hp, e => by
    obtain ⟨_, s1, e1, e2⟩ := DM.bind_ok e
    have ha := aside_notifyImage d data p
    rw [e1] at ha
    exact forms_stay cs s1 p' u n c (fun args hm => hn args (by simp [hm])) (by rw [ha.2]; exact hp) e2
  | .op name args :: cs, p, p', u, n, c, hn, hp, e => by
    obtain ⟨_, s1, e1, e2⟩ := DM.bind_ok e
    refine forms_stay cs s1 p' u n c (fun args hm => hn args (by simp [hm])) ?_ e2
    by_cases hd : name = b!"Do"
    · subst hd
      obtain ⟨q, q', hq, hdo, _, h2⟩ := do_canvas e1
      rw [h2]
      rw [← hq] at hp
      unfold onDoPage at hdo
      obtain ⟨o, s1, e1, e2⟩ := DM.bind_ok hdo
      obtain ⟨k, s2, e3, e4⟩ := DM.bind_ok e2
      obtain ⟨v, s3, e5, e6⟩ := DM.bind_ok e4
      unfold DM.pure at e1 e3 e5
      injection e1 with z1 e1'
      injection e3 with z3 e3'
      injection e5 with z5 e5'
      subst e1' e3' e5'
      clear z1 z3 z5
      split at e6
      · rename_i name x
        unfold paintXObject at e6
        split at e6
        · split at e6
          · cases e6; exact hp
          · rename_i hf
            split at e6
            · cases e6; exact hp
            · split at e6
              · split at e6
                · cases e6
                · split at e6
                  · cases e6
                  · unfold renderForm at e6
                    split at e6
                    · cases e6
                    · cases e6
                      show assoc n (assocSet name _ q.canvas.forms) = _
                      rw [assoc_set, if_neg]
                      · exact hp
                      · intro e
                        subst e
                        rw [hp] at hf
                        exact hf rfl
              · cases e6; exact hp
        · cases e6; exact hp
      · cases e6; exact hp
    · have ha := aside_notifyOp h res (onDoPage h res) onNav name args hd (fun e => hn args (by rw [e]; simp)) p
      rw [e1] at ha
      rw [ha.2]
      exact hp

theorem shows_operators {dec : Option Bytes → Obj → Option Text} {doOk : Option Bytes → List Obj → Prop} {gsOk : List Obj → Prop} {fs fs' : List (Option Bytes)} {cs : List Content}
    {ts : List Text} (hs : Shows dec doOk gsOk fs cs fs' ts) : ∀ name args, .op name args ∈ cs → name ∈ operators := by
  induction hs with
  | nil fs => intro n a hm; cases hm
  | image d data fs fs' cs ts _ _ ih =>
    intro n a hm
    rcases List.mem_cons.mp hm with hm | hm
    · cases hm
    · exact ih n a hm
  | one name o t f fs fs' cs ts hname _ _ ih =>
    intro n a hm
    rcases List.mem_cons.mp hm with hm | hm
    · cases hm
      rcases hname with rfl | rfl <;> decide
    · exact ih n a hm
  | marked name tag props f fs fs' cs ts hname _ _ _ _ ih =>
    intro n a hm
    rcases List.mem_cons.mp hm with hm | hm
    · cases hm
      rcases hname with rfl | rfl <;> decide
    · exact ih n a hm
  | other name args fs fs' cs ts h1 _ _ _ _ ih =>
    intro n a hm
    rcases List.mem_cons.mp hm with hm | hm
    · cases hm
      exact h1
    · exact ih n a hm
  | save args f fs fs' cs ts _ _ ih =>
    intro n a hm
    rcases List.mem_cons.mp hm with hm | hm
    · cases hm; decide
    · exact ih n a hm
  | restore args f g fs fs' cs ts _ _ ih =>
    intro n a hm
    rcases List.mem_cons.mp hm with hm | hm
    · cases hm; decide
    · exact ih n a hm
  | font n0 size f fs fs' cs ts _ _ ih =>
    intro n a hm
    rcases List.mem_cons.mp hm with hm | hm
    · cases hm; decide
    · exact ih n a hm
  | many xs us f fs fs' cs ts _ _ _ ih =>
    intro n a hm
    rcases List.mem_cons.mp hm with hm | hm
    · cases hm; decide
    · exact ih n a hm
  | xobject args f fs fs' cs ts _ _ _ ih =>
    intro n a hm
    rcases List.mem_cons.mp hm with hm | hm
    · cases hm; decide
    · exact ih n a hm
  | state args fs fs' cs ts _ _ _ ih =>
    intro n a hm
    rcases List.mem_cons.mp hm with hm | hm
    · cases hm; decide
    · exact ih n a hm

theorem shows_no_navigate {dec : Option Bytes → Obj → Option Text} {doOk : Option Bytes → List Obj → Prop} {gsOk : List Obj → Prop} {fs fs' : List (Option Bytes)} {cs : List Content}
    {ts : List Text} (hs : Shows dec doOk gsOk fs cs fs' ts) : ∀ args, .op b!"navigate" args ∉ cs :=
  fun args hm => absurd (shows_operators hs _ _ hm) (by decide)

theorem onDo_eq {h : Host} {res : Resources} (hn : Named res) (n : Bytes) (rest : List Obj) : onDoPage h res (.name n :: rest) = match resource res b!"XObject" n with
    | some x => paintXObject h n x
    | none => DM.pure (.ok ()) := by
  have h1 : arg0 (.name n :: rest) = .ok (.name n) := rfl
  have h2 : strKey (.name n) = .ok (some n) := rfl
  unfold onDoPage
  rw [h1]
  funext p
  have hb : ∀ {α β : Type} (a : α) (f : α → DM Paint β), (DM.pure (.ok a)).bind f p = f a p := fun _ _ => rfl
  rw [hb, h2, hb, lookup_named hn (by simp), hb]
  cases resource res b!"XObject" n <;> rfl

/-- Do with a form which is not on the canvas yet. -/
theorem do_form {h : Host} {res : Resources} (hn : Named res) {onNav : DM Paint Unit} {n : Bytes} {rest : List Obj} {es : List (Bytes × Obj)} {d : Bytes}
    (hr : resource res b!"XObject" n = some (.stream b!"Form" es d)) (hd : d ≠ []) {f : Option Bytes} {us : List Text} (hf : FormShows h (.stream b!"Form" es d) f us)
    (hp : ∀ o ∈ rest, Plain o) {fs : List (Option Bytes)} {p : Paint} (hi : PaintInv res (f :: fs) p) (hnew : assoc n p.canvas.forms = none) :
    ∃ p' c, notifyOp h res (onDoPage h res) onNav b!"Do" (.name n :: rest) p = (.ok (), p') ∧ PaintInv res (f :: fs) p' ∧ assoc n p'.canvas.forms = some c ∧ c.strings = us ∧
      p'.canvas.strings = p.canvas.strings := by
  obtain ⟨p1, e1, i1, _⟩ := goes_save (res := res) (f := f) (fs := fs) p hi
  have c1 : p1.canvas = p.canvas := by
    obtain ⟨_, _, hs⟩ := save_ok e1
    rw [hs]
  obtain ⟨r, s, f', h1, h2, h3⟩ := form_paints hf
  obtain ⟨p2, c, e2, i2, hc, hcs⟩ := h3 res n (f :: fs) p1 i1
  have ed : onDoPage h res (.name n :: rest) p1 = (.ok (), p2) := by
    rw [onDo_eq hn, hr]
    show paintXObject h n _ p1 = _
    unfold paintXObject
    have ht : truthyVal (.stream b!"Form" es d) = true := by
      cases d with
      | nil => exact absurd rfl hd
      | cons a as => rfl
    have hnone : ¬ (assoc n p1.canvas.forms).isSome = true := by
      rw [c1, hnew]
      simp
    rw [if_pos ht, if_neg hnone, if_neg (fun h => by cases h), if_pos (show isStreamOf b!"Form" (.stream b!"Form" es d) = true from rfl), h1]
    dsimp only
    rw [h2]
    exact e2
  obtain ⟨p3, e3, i3, _⟩ := goes_restore (res := res) (f := f) (g := f') (fs := fs) p2 i2
  have c3 : p3.canvas = p2.canvas := by cases e3; rfl
  obtain ⟨t, ht⟩ := plain_args (args := .name n :: rest) (fun o ho => by
    rcases List.mem_cons.mp ho with rfl | ho
    · exact .name n
    · exact hp o ho) b!"Do"
  refine ⟨{ p3 with canvas := { p3.canvas with text := p3.canvas.text ++ t } }, c, ?_, ⟨i3.fonts, i3.copies, i3.decoders⟩, ?_, hcs, ?_⟩
  · unfold notifyOp
    have hal : aliasOf b!"Do" = b!"Do" := by decide
    rw [hal, if_pos rfl, DM.bind_eq e1]
    have he : onOperator h res (onDoPage h res) b!"Do" (.name n :: rest) = keep (.name n :: rest) (onDoPage h res (.name n :: rest)) := rfl
    rw [he]
    unfold keep
    rw [dm_assoc, DM.bind_eq ed]
    have hb : ∀ {α β : Type} (a : α) (f : α → DM Paint β) (q : Paint), (DM.pure (.ok a)).bind f q = f a q := fun _ _ _ => rfl
    rw [hb, if_pos rfl, DM.bind_eq e3, ht]
    rfl
  · show assoc n p3.canvas.forms = some c
    rw [c3, hc]
    show assoc n (assocSet n c _) = _
    rw [assoc_set, if_pos rfl]
  · show p3.canvas.strings = _
    rw [c3, hc]
    show p1.canvas.strings = _
    rw [c1]

theorem notifyAll_append_ok {h : Host} {res : Resources} {onDo : List Obj → DM Paint Unit} {onNav : DM Paint Unit} : ∀ (cs ds : List Content) (p p1 : Paint),
    notifyAll h res onDo onNav cs p = (.ok (), p1) → notifyAll h res onDo onNav (cs ++ ds) p = notifyAll h res onDo onNav ds p1
  | [], ds, p, p1, e => by cases e; rfl
  | .op name args :: cs, ds, p, p1, e => by
    obtain ⟨_, s1, e1, e2⟩ := DM.bind_ok e
    show ((notifyOp h res onDo onNav name args).bind fun _ => notifyAll h res onDo onNav (cs ++ ds)) p = _
    rw [DM.bind_eq e1]
    exact notifyAll_append_ok cs ds s1 p1 e2
  | .image d data :: cs, ds, p, p1, e => by
    obtain ⟨_, s1, e1, e2⟩ := DM.bind_ok e
    show ((notifyImage d data).bind fun _ => notifyAll h res onDo onNav (cs ++ ds)) p = _
    rw [DM.bind_eq e1]
    exact notifyAll_append_ok cs ds s1 p1 e2

end PdfReader
