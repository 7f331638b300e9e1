/-
  Handlers do not look at the text of the canvas.
-/
import Verif.Spec.Ignored
import Verif.Lemmas.Shows

namespace PdfReader

open Spec

/-- Another text on the canvas. -/
def Paint.retext (p : Paint) (t : Text) : Paint := { p with canvas := { p.canvas with text := t } }

/-- What is done, and with which result, does not depend on the text on the canvas. -/
def Blind {α : Type} (m : DM Paint α) : Prop := ∀ p t, ∃ t', m (p.retext t) = ((m p).1, (m p).2.retext t')

theorem blind_pure {α : Type} (r : Res α) : Blind (DM.pure r) := fun _ t => ⟨t, rfl⟩

theorem blind_bind {α β : Type} {m : DM Paint α} {f : α → DM Paint β} (h1 : Blind m) (h2 : ∀ a, Blind (f a)) : Blind (m.bind f) := by
  intro p t
  obtain ⟨t1, e1⟩ := h1 p t
  unfold DM.bind
  rw [e1]
  generalize m p = r
  obtain ⟨r, p1⟩ := r
  cases r with
  | error e => exact ⟨t1, rfl⟩
  | ok a => exact h2 a p1 t1

theorem blind_ite {α : Type} {c : Prop} [Decidable c] {a b : DM Paint α} (h1 : Blind a) (h2 : Blind b) : Blind (if c then a else b) := by
  split
  · exact h1
  · exact h2

theorem blind_setField (k : Bytes) (v : Val) : Blind (setField k v) := by
  intro p t
  refine ⟨t, ?_⟩
  unfold setField
  show (match ensureState p.gss with | [] => _ | g :: gs => _) = _
  cases ensureState p.gss <;> rfl

theorem blind_save : Blind saveState := by
  intro p t
  refine ⟨t, ?_⟩
  unfold saveState
  show (match ensureState p.gss with | [] => _ | g :: gs => _) = _
  cases ensureState p.gss with
  | nil => rfl
  | cons g gs =>
    dsimp only
    split <;> rfl

theorem blind_addString (u : Text) : Blind (addString u) := fun _ t => ⟨t, rfl⟩

theorem blind_addText (r : Res Text) : Blind (addText r) := by
  intro p t
  cases r with
  | error e => exact ⟨t, rfl⟩
  | ok u => exact ⟨t ++ u, rfl⟩

theorem blind_decodeString (h : Host) (res : Resources) (o : Obj) : Blind (decodeString h res o) := by
  intro p t
  refine ⟨t, ?_⟩
  unfold decodeString
  dsimp only
  show (match fontKey ((ensureState p.gss).headD []) with | .error e => _ | .ok k => _) = _
  cases fontKey ((ensureState p.gss).headD []) with
  | error e => rfl
  | ok k =>
    dsimp only
    show (match assoc k p.decoders with | some d => _ | none => _) = _
    cases assoc k p.decoders with
    | some d => rfl
    | none =>
      dsimp only
      cases lookupFont res k <;> rfl

theorem blind_keep (args : List Obj) {m : DM Paint Unit} (h : Blind m) : Blind (keep args m) := blind_bind h fun _ => blind_pure _

theorem blind_showOne (h : Host) (res : Resources) (args : List Obj) : Blind (showOne h res args) :=
  blind_bind (blind_pure _) fun o => blind_bind (blind_decodeString h res o) fun t => blind_bind (blind_addString t) fun _ => blind_pure _

theorem blind_showEach (h : Host) (res : Resources) : ∀ os, Blind (showEach h res os)
  | [] => blind_pure _
  | o :: os => by
    unfold showEach
    split
    · exact blind_bind (blind_decodeString h res _) fun t => blind_bind (blind_addString t) fun _ => blind_bind (blind_showEach h res os) fun _ => blind_pure _
    · exact blind_bind (blind_decodeString h res _) fun t => blind_bind (blind_addString t) fun _ => blind_bind (blind_showEach h res os) fun _ => blind_pure _
    · exact blind_bind (blind_showEach h res os) fun _ => blind_pure _

theorem blind_showMany (h : Host) (res : Resources) (args : List Obj) : Blind (showMany h res args) := by
  refine blind_bind (blind_pure _) fun o => ?_
  split
  · exact blind_bind (blind_showEach h res _) fun _ => blind_pure _
  all_goals exact blind_pure _

theorem blind_decodeProps (h : Host) (res : Resources) (args : List Obj) : Blind (decodeProps h res args) := by
  unfold decodeProps
  split
  · split
    · exact blind_bind (blind_decodeString h res _) fun _ => blind_pure _
    · exact blind_pure _
  all_goals exact blind_pure _

theorem blind_applyGs (h : Host) (res : Resources) (args : List Obj) : Blind (applyGs h res args) := by
  refine blind_bind (blind_pure _) fun o => blind_bind (blind_pure _) fun k => blind_bind (blind_pure _) fun v => ?_
  split
  · exact blind_pure _
  · split
    · intro p t
      refine ⟨t, ?_⟩
      dsimp only
      split
      · split
        · rfl
        · split
          · rfl
          · split
            · rfl
            · have hr : (p.retext t).gss = p.gss := rfl
              simp only [hr]
              generalize hg : ensureState p.gss = gs
              cases gs with
              | nil => exact absurd hg (ensure_ne _)
              | cons g gs => rfl
      · rfl
    · exact blind_pure _

theorem blind_onOperator (h : Host) (res : Resources) (onDo : List Obj → DM Paint Unit) (hdo : ∀ args, Blind (onDo args)) (name : Bytes) (args : List Obj) :
    Blind (onOperator h res onDo name args) := by
  have first : ∀ k, Blind (keep args ((DM.pure (arg0 args)).bind fun o => setField k (.atom o))) := fun k =>
    blind_keep args (blind_bind (blind_pure _) fun o => blind_setField k _)
  have easy : ∀ (f : Paint → Paint), (∀ p t, f (p.retext t) = (f p).retext t) → Blind (keep args fun p => (.ok (), f p)) := fun f hf =>
    blind_keep args fun p t => ⟨t, by dsimp only; rw [hf]⟩
  unfold onOperator
  refine blind_ite (blind_keep args blind_save) ?_
  refine blind_ite (easy _ fun _ _ => rfl) ?_
  refine blind_ite (blind_keep args (blind_setField _ _)) ?_
  refine blind_ite (first _) ?_
  refine blind_ite (first _) ?_
  refine blind_ite (first _) ?_
  refine blind_ite (first _) ?_
  refine blind_ite (blind_keep args (blind_setField _ _)) ?_
  refine blind_ite (first _) ?_
  refine blind_ite (first _) ?_
  refine blind_ite (blind_keep args (blind_applyGs h res args)) ?_
  refine blind_ite (easy _ fun _ _ => rfl) ?_
  refine blind_ite (easy _ fun _ _ => rfl) ?_
  refine blind_ite (blind_keep args (blind_setField _ _)) ?_
  refine blind_ite (blind_showOne h res args) ?_
  refine blind_ite (blind_showMany h res args) ?_
  refine blind_ite (blind_decodeProps h res args) ?_
  refine blind_ite (blind_keep args (hdo args)) ?_
  refine blind_ite (easy _ fun _ _ => rfl) ?_
  exact blind_ite (blind_pure _) (blind_keep args (blind_pure _))

theorem blind_renderForm (h : Host) (res : Resources) (stream name : Bytes) : Blind (renderForm h res stream name) := by
  intro p t
  refine ⟨t, ?_⟩
  unfold renderForm
  show (match renderStream h res (fun _ => DM.pure (.ok ())) (DM.pure (.ok ())) stream { gss := p.gss } with | (.error e, q) => _ | (.ok _, q) => _) = _
  generalize renderStream h res (fun _ => DM.pure (.ok ())) (DM.pure (.ok ())) stream { gss := p.gss } = r
  obtain ⟨r, q⟩ := r
  cases r <;> rfl

theorem blind_onDo (h : Host) (res : Resources) (args : List Obj) : Blind (onDoPage h res args) := by
  refine blind_bind (blind_pure _) fun o => blind_bind (blind_pure _) fun k => blind_bind (blind_pure _) fun v => ?_
  split
  · intro p t
    unfold paintXObject
    have hr : ∀ n, assoc n (p.retext t).canvas.forms = assoc n p.canvas.forms := fun _ => rfl
    simp only [hr]
    split
    · split
      · exact ⟨t, rfl⟩
      · split
        · exact ⟨t, rfl⟩
        · split
          · split
            · exact ⟨t, rfl⟩
            · split
              · exact ⟨t, rfl⟩
              · exact blind_renderForm h _ _ _ p t
          · exact ⟨t, rfl⟩
    · exact ⟨t, rfl⟩
  · exact blind_pure _

theorem blind_notifyOp (h : Host) (res : Resources) (name : Bytes) (args : List Obj) : Blind (notifyOp h res (onDoPage h res) resetPaint name args) := by
  unfold notifyOp
  refine blind_bind (blind_ite blind_save (blind_pure _)) fun _ => ?_
  refine blind_bind (blind_onOperator h res _ (blind_onDo h res) _ args) fun shown => ?_
  refine blind_bind (blind_ite (fun _ t => ⟨t, rfl⟩) (blind_ite (fun _ _ => ⟨[], rfl⟩) (blind_ite (blind_addText _) (blind_pure _)))) fun _ => blind_addText _

theorem blind_notifyImage (d : List (Bytes × Obj)) (data : Bytes) : Blind (notifyImage d data) := fun p t =>
  blind_addText (printObj (.image d data)) { p with canvas := { p.canvas with inline := p.canvas.inline ++ [.image d data] } } t

/-- A command without a handler is only written down. -/
theorem ignored_text (h : Host) (res : Resources) {name : Bytes} (hn : name ∉ interpreted ++ clashing) {args : List Obj} (hp : ∀ o ∈ args, Plain o) (p : Paint) :
    ∃ t, notifyOp h res (onDoPage h res) resetPaint name args p = (.ok (), p.retext t) := by
  have hne : ∀ w ∈ interpreted ++ clashing, name ≠ w := fun w hw e => hn (e ▸ hw)
  have ha : ∀ w ∈ interpreted ++ clashing, aliasOf name ≠ w := by
    intro w hw
    unfold aliasOf
    rw [if_neg (hne b!"'" (by decide)), if_neg (hne b!"\"" (by decide))]
    split
    · intro e
      subst e
      revert hw
      decide
    · exact hne w hw
  obtain ⟨t, ht⟩ := printOp_ok name (args := args.map .obj) (by
    intro a hm
    obtain ⟨o, ho, rfl⟩ := List.mem_map.mp hm
    exact plain_prints (hp o ho))
  refine ⟨p.canvas.text ++ t, ?_⟩
  unfold notifyOp onOperator
  dsimp only
  have hd : aliasOf name ≠ b!"Do" := ha _ (by decide)
  simp only [hd, ha b!"q" (by decide), ha b!"Q" (by decide), ha b!"cm" (by decide), ha b!"w" (by decide), ha b!"J" (by decide), ha b!"j" (by decide), ha b!"M" (by decide),
    ha b!"d" (by decide), ha b!"ri" (by decide), ha b!"i" (by decide), ha b!"gs" (by decide), ha b!"BT" (by decide), ha b!"ET" (by decide), ha b!"Tf" (by decide),
    ha b!"Tj" (by decide), ha b!"apostrophe" (by decide), ha b!"TJ" (by decide), ha b!"quotation" (by decide), ha b!"DP" (by decide), ha b!"BDC" (by decide),
    ha b!"inline_image" (by decide), ha b!"document_load" (by decide), ha b!"navigate" (by decide), ha b!"handler" (by decide), if_false, or_self]
  show addText (printOp name (args.map .obj)) p = _
  rw [ht]
  rfl

/-- Commands left out change nothing but the text. -/
theorem without_same (h : Host) (res : Resources) {cs ds : List Content} (hw : Without (interpreted ++ clashing) cs ds) : ∀ p t, ∃ t',
    notifyAll h res (onDoPage h res) resetPaint cs (p.retext t) =
      ((notifyAll h res (onDoPage h res) resetPaint ds p).1, (notifyAll h res (onDoPage h res) resetPaint ds p).2.retext t') := by
  induction hw with
  | nil => exact fun p t => ⟨t, rfl⟩
  | kept c cs ds _ ih =>
    intro p t
    cases c with
    | op name args =>
      obtain ⟨t1, e1⟩ := blind_notifyOp h res name args p t
      show ∃ t', (notifyOp h res (onDoPage h res) resetPaint name args).bind _ _ = (((notifyOp h res (onDoPage h res) resetPaint name args).bind _ _).1, _)
      unfold DM.bind
      rw [e1]
      show ∃ t', _ = (_, ((notifyOp h res (onDoPage h res) resetPaint name args).bind _ _).2.retext t')
      unfold DM.bind
      generalize notifyOp h res (onDoPage h res) resetPaint name args p = r
      obtain ⟨r, p1⟩ := r
      cases r with
      | error e => exact ⟨t1, rfl⟩
      | ok a => exact ih p1 t1
    | image d data =>
      obtain ⟨t1, e1⟩ := blind_notifyImage d data p t
      show ∃ t', (notifyImage d data).bind _ _ = (((notifyImage d data).bind _ _).1, _)
      unfold DM.bind
      rw [e1]
      show ∃ t', _ = (_, ((notifyImage d data).bind _ _).2.retext t')
      unfold DM.bind
      generalize notifyImage d data p = r
      obtain ⟨r, p1⟩ := r
      cases r with
      | error e => exact ⟨t1, rfl⟩
      | ok a => exact ih p1 t1
  | left name args cs ds hn hp _ ih =>
    intro p t
    obtain ⟨t1, e1⟩ := ignored_text h res hn hp (p.retext t)
    show ∃ t', (notifyOp h res (onDoPage h res) resetPaint name args).bind _ _ = _
    rw [DM.bind_eq e1]
    exact ih p t1

end PdfReader
