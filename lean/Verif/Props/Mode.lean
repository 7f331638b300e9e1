/-
  C145: the mode of a viewer tells whether it is inside a text object.
-/
import Verif.Model.Mode
import Verif.Props.Navigate

namespace PdfReader

open Spec

/-- After these objects of a content stream a text object is open: there is BT, and no ET after it. -/
def Spec.InText (cs : List Content) : Prop := ∃ a args b, cs = a ++ .op b!"BT" args :: b ∧ ∀ args', .op b!"ET" args' ∉ b

/-- Leaves the brackets as they are. -/
def SameMode {α : Type} (m : DM Paint α) : Prop := ∀ p, (m p).2.brackets = p.brackets

theorem mode_pure {α : Type} (r : Res α) : SameMode (DM.pure r : DM Paint α) := fun _ => rfl

theorem mode_bind {α β : Type} {m : DM Paint α} {f : α → DM Paint β} (h : SameMode m) (h' : ∀ a, SameMode (f a)) : SameMode (m.bind f) := by
  intro p
  unfold DM.bind
  have := h p
  generalize m p = r at this
  obtain ⟨r, q⟩ := r
  cases r with
  | error e => exact this
  | ok a => exact (h' a q).trans this

theorem mode_keep {args : List Obj} {m : DM Paint Unit} (h : SameMode m) : SameMode (keep args m) := mode_bind h fun _ => mode_pure _

theorem mode_save : SameMode saveState := by
  intro p
  unfold saveState
  split
  · rfl
  · split <;> rfl

theorem mode_restore : SameMode restoreState := fun _ => rfl

theorem mode_setField (k : Bytes) (v : Val) : SameMode (setField k v) := by
  intro p
  unfold setField
  split <;> rfl

theorem mode_decodeString (h : Host) (res : Resources) (o : Obj) : SameMode (decodeString h res o) := by
  intro p
  unfold decodeString
  dsimp only
  split
  · rfl
  · split
    · rfl
    · split <;> rfl

theorem mode_addString (t : Text) : SameMode (addString t) := fun _ => rfl

theorem mode_addText (r : Res Text) : SameMode (addText r) := by
  intro p
  unfold addText
  split <;> rfl

theorem mode_showOne (h : Host) (res : Resources) (args : List Obj) : SameMode (showOne h res args) :=
  mode_bind (mode_pure _) fun _ => mode_bind (mode_decodeString _ _ _) fun _ => mode_bind (mode_addString _) fun _ => mode_pure _

theorem mode_showEach (h : Host) (res : Resources) : ∀ os, SameMode (showEach h res os)
  | [] => mode_pure _
  | o :: os => by
    unfold showEach
    split
    · exact mode_bind (mode_decodeString _ _ _) fun _ => mode_bind (mode_addString _) fun _ => mode_bind (mode_showEach h res os) fun _ => mode_pure _
    · exact mode_bind (mode_decodeString _ _ _) fun _ => mode_bind (mode_addString _) fun _ => mode_bind (mode_showEach h res os) fun _ => mode_pure _
    · exact mode_bind (mode_showEach h res os) fun _ => mode_pure _

theorem mode_showMany (h : Host) (res : Resources) (args : List Obj) : SameMode (showMany h res args) := by
  unfold showMany
  refine mode_bind (mode_pure _) fun o => ?_
  split
  · exact mode_bind (mode_showEach h res _) fun _ => mode_pure _
  all_goals exact mode_pure _

theorem mode_decodeProps (h : Host) (res : Resources) (args : List Obj) : SameMode (decodeProps h res args) := by
  unfold decodeProps
  split
  · split
    · exact mode_bind (mode_decodeString _ _ _) fun _ => mode_pure _
    · exact mode_pure _
  all_goals exact mode_pure _

theorem mode_applyGs (h : Host) (res : Resources) (args : List Obj) : SameMode (applyGs h res args) := by
  unfold applyGs
  refine mode_bind (mode_pure _) fun o => mode_bind (mode_pure _) fun k => mode_bind (mode_pure _) fun v => ?_
  split
  · exact mode_pure _
  · split
    · intro p
      dsimp only
      split
      · split
        · rfl
        · split
          · rfl
          · split
            · rfl
            · split <;> rfl
      · rfl
    · exact mode_pure _

theorem mode_onDo (h : Host) (res : Resources) (args : List Obj) : SameMode (onDoPage h res args) := by
  unfold onDoPage
  refine mode_bind (mode_pure _) fun o => mode_bind (mode_pure _) fun k => mode_bind (mode_pure _) fun v => ?_
  split
  · intro p
    unfold paintXObject
    split
    · split
      · rfl
      · split
        · rfl
        · split
          · split
            · rfl
            · split
              · rfl
              · unfold renderForm
                split <;> rfl
          · rfl
    · rfl
  · exact mode_pure _

theorem mode_ite {α : Type} {c : Prop} [Decidable c] {a b : DM Paint α} (h : c → SameMode a) (h' : SameMode b) : SameMode (if c then a else b) := by
  split
  · exact h ‹_›
  · exact h'

/-- The operators other than BT and ET leave the mode as it is. -/
theorem mode_onOperator {h : Host} {res : Resources} {onDo : List Obj → DM Paint Unit} (hdo : ∀ args, SameMode (onDo args)) {name : Bytes} (h1 : name ≠ b!"BT") (h2 : name ≠ b!"ET") (args : List Obj) :
    SameMode (onOperator h res onDo name args) := by
  have hf : ∀ k, SameMode (keep args ((DM.pure (arg0 args)).bind fun o => setField k (.atom o))) :=
    fun k => mode_keep (mode_bind (mode_pure _) fun _ => mode_setField _ _)
  unfold onOperator
  dsimp only
  refine mode_ite (fun _ => mode_keep mode_save) (mode_ite (fun _ => mode_keep mode_restore) (mode_ite (fun _ => mode_keep (mode_setField _ _)) (mode_ite (fun _ => hf _)
    (mode_ite (fun _ => hf _) (mode_ite (fun _ => hf _) (mode_ite (fun _ => hf _) (mode_ite (fun _ => mode_keep (mode_setField _ _)) (mode_ite (fun _ => hf _) (mode_ite (fun _ => hf _)
    (mode_ite (fun _ => mode_keep (mode_applyGs _ _ _)) (mode_ite (fun h => absurd h h1) (mode_ite (fun h => absurd h h2) (mode_ite (fun _ => mode_keep (mode_setField _ _))
    (mode_ite (fun _ => mode_showOne _ _ _) (mode_ite (fun _ => mode_showMany _ _ _) (mode_ite (fun _ => mode_decodeProps _ _ _) (mode_ite (fun _ => mode_keep (hdo _))
    (mode_ite (fun _ => mode_keep ?_) (mode_ite (fun _ => mode_pure _) (mode_keep (mode_pure _)))))))))))))))))))))
  intro p
  rfl

theorem alias_not (name : Bytes) (k : Bytes) (hk : k ∉ [b!"apostrophe", b!"quotation", b!"Tstar"]) (h : aliasOf name = k) : name = k := by
  unfold aliasOf at h
  split at h
  · subst h; simp at hk
  · split at h
    · subst h; simp at hk
    · split at h
      · subst h; simp at hk
      · exact h

/-- A step: what one operator makes of the mode. -/
theorem mode_notify {h : Host} {res : Resources} {onDo : List Obj → DM Paint Unit} {nav : DM Paint Unit} (hdo : ∀ args, SameMode (onDo args)) {name : Bytes} (hn : name ≠ b!"navigate")
    (args : List Obj) (p : Paint) (hp : p.brackets = [] ∨ p.brackets = [b!"BT"]) :
    (notifyOp h res onDo nav name args p).2.brackets = if name = b!"BT" then [b!"BT"] else if name = b!"ET" then [] else p.brackets := by
  have hnav : aliasOf name ≠ b!"navigate" := fun e => hn (alias_not _ _ (by decide) e)
  have htail : ∀ shown, SameMode ((if aliasOf name = b!"Do" then restoreState else if aliasOf name = b!"navigate" then nav
      else if aliasOf name = b!"handler" then addText (printOp name shown) else DM.pure (.ok ())).bind fun _ => addText (printOp name shown)) := by
    intro shown
    refine mode_bind ?_ fun _ => mode_addText _
    rw [if_neg hnav]
    split
    · exact mode_restore
    · split
      · exact mode_addText _
      · exact mode_pure _
  by_cases h1 : name = b!"BT"
  · subst h1
    rw [if_pos rfl]
    refine Eq.trans (htail (args.map .obj) (beginText p).2) ?_
    show b!"BT" :: _ = _
    rcases hp with hp | hp <;> rw [hp] <;> rfl
  · by_cases h2 : name = b!"ET"
    · subst h2
      rw [if_neg (by decide), if_pos rfl]
      refine Eq.trans (htail (args.map .obj) (endText p).2) ?_
      show (if p.brackets.head? = _ then _ else _) = _
      rcases hp with hp | hp <;> rw [hp] <;> rfl
    · rw [if_neg h1, if_neg h2]
      unfold notifyOp
      refine mode_bind ?_ (fun _ => mode_bind (mode_onOperator hdo (fun e => h1 (alias_not _ _ (by decide) e)) (fun e => h2 (alias_not _ _ (by decide) e)) args) htail) p
      split
      · exact mode_save
      · exact mode_pure _

theorem inText_nil : ¬ InText [] := by
  rintro ⟨a, args, b, e, _⟩
  have := congrArg List.length e
  simp at this

/-- One more object at the beginning. -/
theorem inText_cons (c : Content) (cs : List Content) :
    InText (c :: cs) ↔ InText cs ∨ ((∃ args, c = .op b!"BT" args) ∧ ∀ args, .op b!"ET" args ∉ cs) := by
  constructor
  · rintro ⟨a, args, b, e, h⟩
    cases a with
    | nil =>
      injection e with e1 e2
      exact Or.inr ⟨⟨args, e1⟩, by rw [e2]; exact h⟩
    | cons x a =>
      injection e with e1 e2
      exact Or.inl ⟨a, args, b, e2, h⟩
  · rintro (⟨a, args, b, e, h⟩ | ⟨⟨args, e⟩, h⟩)
    · exact ⟨c :: a, args, b, by rw [e]; rfl, h⟩
    · exact ⟨[], args, cs, by rw [e]; rfl, h⟩

/-- What a whole content makes of the brackets. -/
theorem mode_notifyAll {h : Host} {res : Resources} {onDo : List Obj → DM Paint Unit} {nav : DM Paint Unit} (hdo : ∀ args, SameMode (onDo args)) :
    ∀ (cs : List Content), (∀ args, .op b!"navigate" args ∉ cs) → ∀ p : Paint, p.brackets = [] ∨ p.brackets = [b!"BT"] → ∀ u q, notifyAll h res onDo nav cs p = (.ok u, q) →
      (q.brackets = [] ∨ q.brackets = [b!"BT"]) ∧ (q.brackets = [b!"BT"] ↔ InText cs ∨ (p.brackets = [b!"BT"] ∧ ∀ args, .op b!"ET" args ∉ cs))
  | [], _, p, hp, u, q, e => by
    cases e
    exact ⟨hp, ⟨fun h => Or.inr ⟨h, fun _ h => by cases h⟩, fun h => h.elim (fun h => absurd h inText_nil) (·.1)⟩⟩
  | .image d data :: cs, hn, p, hp, u, q, e => by
    rw [notifyAll] at e
    unfold DM.bind at e
    have hs : (notifyImage d data p).2.brackets = p.brackets := mode_addText _ _
    generalize notifyImage d data p = r at e hs
    obtain ⟨r, p1⟩ := r
    cases r with
    | error x => cases e
    | ok _ =>
      dsimp only at e hs
      have := mode_notifyAll hdo cs (fun args h => hn args (List.mem_cons_of_mem _ h)) p1 (by rw [hs]; exact hp) u q e
      rw [hs] at this
      refine ⟨this.1, this.2.trans ?_⟩
      rw [inText_cons]
      constructor
      · rintro (h | ⟨h, h'⟩)
        · exact Or.inl (Or.inl h)
        · exact Or.inr ⟨h, fun args hm => (List.mem_cons.mp hm).elim (fun e => nomatch e) (h' args)⟩
      · rintro ((h | ⟨⟨_, e⟩, _⟩) | ⟨h, h'⟩)
        · exact Or.inl h
        · cases e
        · exact Or.inr ⟨h, fun args hm => h' args (List.mem_cons_of_mem _ hm)⟩
  | .op name args :: cs, hn, p, hp, u, q, e => by
    rw [notifyAll] at e
    unfold DM.bind at e
    have hname : name ≠ b!"navigate" := fun e => hn args (by rw [e]; simp)
    have hs := mode_notify (h := h) (res := res) (onDo := onDo) (nav := nav) hdo hname args p hp
    generalize notifyOp h res onDo nav name args p = r at e hs
    obtain ⟨r, p1⟩ := r
    cases r with
    | error x => cases e
    | ok _ =>
      dsimp only at e hs
      have hp1 : p1.brackets = [] ∨ p1.brackets = [b!"BT"] := by
        rw [hs]
        split
        · exact Or.inr rfl
        · split
          · exact Or.inl rfl
          · exact hp
      have := mode_notifyAll hdo cs (fun args h => hn args (List.mem_cons_of_mem _ h)) p1 hp1 u q e
      refine ⟨this.1, this.2.trans ?_⟩
      rw [inText_cons]
      by_cases h1 : name = b!"BT"
      · rw [hs, if_pos h1]
        subst h1
        constructor
        · rintro (h | ⟨_, h⟩)
          · exact Or.inl (Or.inl h)
          · exact Or.inl (Or.inr ⟨⟨args, rfl⟩, h⟩)
        · rintro ((h | ⟨_, h⟩) | ⟨_, h⟩)
          · exact Or.inl h
          · exact Or.inr ⟨rfl, h⟩
          · exact Or.inr ⟨rfl, fun a hm => h a (List.mem_cons_of_mem _ hm)⟩
      · by_cases h2 : name = b!"ET"
        · rw [hs, if_neg h1, if_pos h2]
          subst h2
          constructor
          · rintro (h | ⟨h, _⟩)
            · exact Or.inl (Or.inl h)
            · cases h
          · rintro ((h | ⟨⟨_, e⟩, _⟩) | ⟨_, h⟩)
            · exact Or.inl h
            · injection e with e; exact absurd e (by decide)
            · exact absurd (List.mem_cons_self ..) (h args)
        · rw [hs, if_neg h1, if_neg h2]
          constructor
          · rintro (h | ⟨h, h'⟩)
            · exact Or.inl (Or.inl h)
            · refine Or.inr ⟨h, fun a hm => ?_⟩
              rcases List.mem_cons.mp hm with e | hm
              · injection e with e; exact h2 e.symm
              · exact h' a hm
          · rintro ((h | ⟨⟨_, e⟩, _⟩) | ⟨h, h'⟩)
            · exact Or.inl h
            · injection e with e; exact absurd e h1
            · exact Or.inr ⟨h, fun a hm => h' a (List.mem_cons_of_mem _ hm)⟩

/-- C145, while rendering a page: after any objects of the content the mode is `BT` if a text object is open, and none otherwise. -/
theorem C145_mode_partial (h : Host) (res : Resources) (cs : List Content) (hn : ∀ args, .op b!"navigate" args ∉ cs) (p q : Paint) (hp : p.mode = none)
    (e : notifyAll h res (onDoPage h res) resetPaint cs p = (.ok (), q)) : (InText cs → q.mode = some b!"BT") ∧ (¬ InText cs → q.mode = none) := by
  have hb : p.brackets = [] := by
    unfold Paint.mode at hp
    cases hc : p.brackets with
    | nil => rfl
    | cons x xs => rw [hc] at hp; cases hp
  obtain ⟨h1, h2⟩ := mode_notifyAll (mode_onDo h res) cs hn p (Or.inl hb) () q e
  refine ⟨fun ht => ?_, fun ht => ?_⟩
  · unfold Paint.mode
    rw [h2.mpr (Or.inl ht)]
    rfl
  · unfold Paint.mode
    rcases h1 with h1 | h1
    · rw [h1]; rfl
    · rcases h2.mp h1 with h | ⟨h, _⟩
      · exact absurd h ht
      · rw [hb] at h; cases h

/-- C145, a viewer: after any calls which returned, rendering a page for the first time leaves the mode which the content of the page ends with: none, if
all its text objects are closed. -/
theorem C145_viewer_partial (doc : DocPages) (v v' : Viewer) (h : Clean doc v) (hc : assoc v.number v.cache = none)
    (hn : ∀ args, .op b!"navigate" args ∉ (contentObjects v.stream).1) (e : v.render = (.ok (), v')) :
    v.mode = none ∧ (InText (contentObjects v.stream).1 → v'.mode = some b!"BT") ∧ (¬ InText (contentObjects v.stream).1 → v'.mode = none) := by
  have hb := (fresh_clean h).blank hc
  refine ⟨by unfold Viewer.mode; rw [hb.2.1]; rfl, ?_⟩
  unfold Viewer.render at e
  rw [hc] at e
  dsimp only at e
  cases hk : assoc v.number v.known with
  | none => rw [hk] at e; cases e
  | some pg =>
    rw [hk] at e
    dsimp only at e
    unfold Viewer.paint at e
    cases hr : renderPage pg.host v.res v.stream { gss := v.gss, canvas := v.current, brackets := v.brackets, decoders := v.decoders } with
    | mk r p =>
      rw [hr] at e
      cases r with
      | error x => cases e
      | ok u =>
        dsimp only at e
        have ev := (Prod.mk.inj e).2
        have hm : v'.mode = p.mode := by rw [← ev]; rfl
        rw [hm]
        unfold renderPage renderStream DM.bind at hr
        cases ha : notifyAll pg.host v.res (onDoPage pg.host v.res) resetPaint (contentObjects v.stream).1
            { gss := v.gss, canvas := v.current, brackets := v.brackets, decoders := v.decoders } with
        | mk r' p' =>
          rw [ha] at hr
          cases r' with
          | error x => cases hr
          | ok u' =>
            dsimp only at hr
            have hp : p' = p := by
              cases hx : (contentObjects v.stream).2 with
              | none => rw [hx] at hr; exact (Prod.mk.inj hr).2
              | some x => rw [hx] at hr; exact absurd (Prod.mk.inj hr).1 (by simp)
            rw [← hp]
            exact C145_mode_partial pg.host v.res _ hn _ p' (by unfold Paint.mode; rw [hb.2.1]; rfl) ha

/-- Navigation to a page closes all text objects, also if it fails. -/
theorem C145_navigated (v : Viewer) (pg : PageInfo) : (afterNavigate pg v).2.mode = none := by
  unfold afterNavigate
  dsimp only
  split
  · rfl
  · split
    · rfl
    · split <;> rfl

/-- C145 is false of a content with the word `navigate`: the viewer takes it for its own navigation, and forgets that a text object is open. -/
theorem C145_counterexample (h : Host) : ∃ q, notifyAll h [] (onDoPage h []) resetPaint [.op b!"BT" [], .op b!"navigate" []] {} = (.ok (), q) ∧ q.mode = none ∧
    InText [.op b!"BT" [], .op b!"navigate" []] := ⟨_, rfl, rfl, [], [], [.op b!"navigate" []], rfl, by simp⟩

/-- Text objects which are closed, one which is not, and one within another. -/
example : ¬ InText (contentObjects b!"BT (a) Tj ET q").1 ∧ InText (contentObjects b!"BT (a) Tj ET BT").1 ∧ ¬ InText (contentObjects b!"BT BT (a) Tj ET q").1 := by
  have e1 : (contentObjects b!"BT (a) Tj ET q").1 = [.op b!"BT" [], .op b!"Tj" [.str b!"a"], .op b!"ET" [], .op b!"q" []] := by decide +kernel
  have e2 : (contentObjects b!"BT (a) Tj ET BT").1 = [.op b!"BT" [], .op b!"Tj" [.str b!"a"], .op b!"ET" [], .op b!"BT" []] := by decide +kernel
  have e3 : (contentObjects b!"BT BT (a) Tj ET q").1 = [.op b!"BT" [], .op b!"BT" [], .op b!"Tj" [.str b!"a"], .op b!"ET" [], .op b!"q" []] := by decide +kernel
  rw [e1, e2, e3]
  simp only [inText_cons, inText_nil]
  simp

/-- A page with a text object which is not closed. -/
example : (match openViewer { pages := [pageOf b!"BT BT (one) Tj ET (x) Tj BT"] } with
    | .error _ => none
    | .ok v => some (v.mode, (v.render).2.mode)) = some (none, some b!"BT") := by decide +kernel

end PdfReader
