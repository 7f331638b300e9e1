/-
  C136, C137: viewers with handlers of their own.
-/
import Verif.Model.Custom
import Verif.Spec.Custom
import Verif.Props.Viewer

namespace PdfReader

open Spec

variable {σ : Type}

/-- What an object is called. -/
def Seen.title : Seen → Option Bytes
  | .op name _ => some name
  | .image _ _ => none

/-- Handlers do not rename operators. -/
def ViewerClass.KeepsNames (c : ViewerClass σ) : Prop := ∀ n f o s o' s', c.handler n = some f → f o s = (.ok o', s') → o'.title = o.title

/-- Is there a handler of that name? -/
def ViewerClass.has (c : ViewerClass σ) (extra : Bytes → Bool) (n : Bytes) : Bool := (c.handler n).isSome || extra n

/-- A step of the subclass which watches: what the class does, and the notes of what was called. -/
def Noted {α : Type} (log : List Bytes) (calls : List Bytes) (m : DM σ α) (m' : DM (σ × List Bytes) α) (s : σ) : Prop :=
  (∀ a s', m s = (.ok a, s') → m' (s, log) = (.ok a, (s', log ++ calls))) ∧
  (∀ e s', m s = (.error e, s') → ∃ done, done <+: calls ∧ done ≠ [] ∧ m' (s, log) = (.error e, (s', log ++ done)))

theorem noted_bind {α β : Type} {log c1 c2 : List Bytes} {m : DM σ α} {m' : DM (σ × List Bytes) α} {f : α → DM σ β} {f' : α → DM (σ × List Bytes) β} {s : σ}
    (h1 : Noted log c1 m m' s) (h2 : ∀ a s', m s = (.ok a, s') → Noted (log ++ c1) c2 (f a) (f' a) s') : Noted log (c1 ++ c2) (m.bind f) (m'.bind f') s := by
  cases hm : m s with
  | mk r s1 =>
    cases r with
    | ok a =>
      have e1 := h1.1 a s1 hm
      have h2 := h2 a s1 hm
      unfold Noted
      rw [DM.bind_eq hm, DM.bind_eq e1]
      refine ⟨fun b s' hb => ?_, fun e s' hb => ?_⟩
      · rw [h2.1 b s' hb, List.append_assoc]
      · obtain ⟨done, h3, h4, h5⟩ := h2.2 e s' hb
        exact ⟨c1 ++ done, (List.prefix_append_right_inj c1).mpr h3, by simp [h4], by rw [h5, List.append_assoc]⟩
    | error e =>
      obtain ⟨done, h3, h4, h5⟩ := h1.2 e s1 hm
      unfold Noted
      rw [DM.bind_error hm, DM.bind_error h5]
      refine ⟨fun b s' hb => (by cases hb), fun e' s' hb => ?_⟩
      cases hb
      exact ⟨done, h3.trans (List.prefix_append _ _), h4, rfl⟩

theorem noted_pure {α : Type} (log : List Bytes) (a : α) (s : σ) : Noted log [] (DM.pure (.ok a)) (DM.pure (.ok a)) s := by
  refine ⟨fun b s' h => ?_, fun e s' h => (by cases h)⟩
  cases h
  rw [List.append_nil]
  rfl

theorem optional_some {c : ViewerClass σ} {n : Bytes} {f : Seen → DM σ Seen} (h : c.handler n = some f) (o : Seen) : c.optional n o = f o := by
  unfold ViewerClass.optional; rw [h]

theorem optional_none {c : ViewerClass σ} {n : Bytes} (h : c.handler n = none) (o : Seen) : c.optional n o = DM.pure (.ok o) := by
  unfold ViewerClass.optional; rw [h]

theorem noted_optional (c : ViewerClass σ) (extra : Bytes → Bool) (log : List Bytes) (n : Bytes) (o : Seen) (s : σ) :
    Noted log ([n].filter (c.has extra)) (c.optional n o) ((c.watched extra).optional n o) s := by
  cases hh : c.has extra n with
  | true =>
    have e : (c.watched extra).optional n o (s, log) = ((c.optional n o s).1, ((c.optional n o s).2, log ++ [n])) := by
      have : (c.watched extra).handler n = some fun o s => ((c.optional n o s.1).1, ((c.optional n o s.1).2, s.2 ++ [n])) := if_pos hh
      rw [optional_some this]
    rw [List.filter_cons_of_pos hh, List.filter_nil]
    unfold Noted
    rw [e]
    refine ⟨fun a s' h => by rw [h], fun e s' h => ⟨[n], List.prefix_refl _, by simp, by rw [h]⟩⟩
  | false =>
    rw [List.filter_cons_of_neg (by simp [hh]), List.filter_nil]
    have e : (c.watched extra).optional n o = DM.pure (.ok o) := by
      have : (c.watched extra).handler n = none := if_neg (by show ¬ c.has extra n = true; simp [hh])
      exact optional_none this o
    have e' : c.optional n o = DM.pure (.ok o) := by
      have : c.handler n = none := by
        unfold ViewerClass.has at hh
        simp at hh
        exact hh.1
      unfold ViewerClass.optional
      rw [this]
    rw [e, e']
    exact noted_pure log o s

theorem noted_required (c : ViewerClass σ) (extra : Bytes → Bool) (log : List Bytes) (n : Bytes) (hn : (c.handler n).isSome) (o : Seen) (s : σ) :
    Noted log [n] (c.required n o) ((c.watched extra).required n o) s := by
  have hh : c.has extra n = true := by unfold ViewerClass.has; rw [hn]; rfl
  have h := noted_optional c extra log n o s
  rw [List.filter_cons_of_pos hh, List.filter_nil] at h
  have e1 : c.required n o = c.optional n o := by
    unfold ViewerClass.required ViewerClass.optional
    cases hc : c.handler n with
    | some f => rfl
    | none => rw [hc] at hn; cases hn
  have e2 : (c.watched extra).required n o = (c.watched extra).optional n o := by
    unfold ViewerClass.required ViewerClass.optional
    have : (c.watched extra).handler n = some fun o s => ((c.optional n o s.1).1, ((c.optional n o s.1).2, s.2 ++ [n])) := if_pos hh
    rw [this]
  rw [e1, e2]
  exact h

/-- The names of the stages of an object. -/
def stageNames (c : ViewerClass σ) (o : Seen) (stages : List Bytes) : List Bytes := stages.map fun st => c.handlerName st o

theorem stageNames_title (c : ViewerClass σ) {o o' : Seen} (h : o'.title = o.title) (stages : List Bytes) : stageNames c o' stages = stageNames c o stages := by
  cases o <;> cases o' <;> simp [Seen.title] at h
  · subst h; rfl
  · rfl

theorem optional_title (c : ViewerClass σ) (hk : c.KeepsNames) {n : Bytes} {o o' : Seen} {s s' : σ} (h : c.optional n o s = (.ok o', s')) : o'.title = o.title := by
  unfold ViewerClass.optional at h
  cases hc : c.handler n with
  | some f => rw [hc] at h; exact hk n f o s o' s' hc h
  | none => rw [hc] at h; cases h; rfl

theorem required_title (c : ViewerClass σ) (hk : c.KeepsNames) {n : Bytes} {o o' : Seen} {s s' : σ} (h : c.required n o s = (.ok o', s')) : o'.title = o.title := by
  unfold ViewerClass.required at h
  cases hc : c.handler n with
  | some f => rw [hc] at h; exact hk n f o s o' s' hc h
  | none => rw [hc] at h; cases h

theorem noted_flow (c : ViewerClass σ) (hk : c.KeepsNames) (extra : Bytes → Bool) : ∀ (stages : List Bytes) (log : List Bytes) (o : Seen) (s : σ),
    Noted log ((stageNames c o stages).filter (c.has extra)) (c.flow stages o) ((c.watched extra).flow stages o) s
  | [], log, o, s => noted_pure log o s
  | st :: stages, log, o, s => by
    have e : (stageNames c o (st :: stages)).filter (c.has extra) = [c.handlerName st o].filter (c.has extra) ++ (stageNames c o stages).filter (c.has extra) := by
      rw [← List.filter_append]; rfl
    rw [e]
    have hn : (c.watched extra).handlerName st o = c.handlerName st o := by cases o <;> rfl
    show Noted log _ ((c.optional (c.handlerName st o) o).bind fun o => c.flow stages o) (((c.watched extra).optional ((c.watched extra).handlerName st o) o).bind fun o => (c.watched extra).flow stages o) s
    rw [hn]
    refine noted_bind (noted_optional c extra log _ o s) fun o' s' h => ?_
    rw [← stageNames_title c (optional_title c hk h)]
    exact noted_flow c hk extra stages _ o' s'

theorem noted_notify (c : ViewerClass σ) (hk : c.KeepsNames) (extra : Bytes → Bool) (hb : (c.handler b!"before_handler").isSome) (ha : (c.handler b!"after_handler").isSome)
    (log : List Bytes) (o : Content) (s : σ) : Noted log (callsFor c.alias (c.has extra) o) (c.notify (.fresh o)) ((c.watched extra).notify (.fresh o)) s := by
  have e : callsFor c.alias (c.has extra) o = [b!"before_handler"] ++ ((stageNames c (.fresh o) operatorFlow).filter (c.has extra) ++ ([b!"after_handler"] ++ [])) := by
    cases o <;> rfl
  rw [e]
  refine noted_bind (noted_required c extra log _ hb _ s) fun o1 s1 h1 => ?_
  rw [← stageNames_title c (required_title c hk h1)]
  refine noted_bind (noted_flow c hk extra _ _ o1 s1) fun o2 s2 _ => ?_
  exact noted_bind (noted_required c extra _ _ ha o2 s2) fun _ s3 _ => noted_pure _ () s3

/-- C136: whatever the handlers of a class of viewers do (but for renaming operators), rendering objects without an exception calls, for each of
them in order, `before_handler`, then those of `before_…`, `on_…` and `after_…` which the class has, then `after_handler`, and nothing else. If a handler
raises, the objects before were handled completely, its object up to this handler, and the objects after not at all; the exception is raised by `render`. -/
theorem C136_order (c : ViewerClass σ) (hk : c.KeepsNames) (extra : Bytes → Bool) (hb : (c.handler b!"before_handler").isSome) (ha : (c.handler b!"after_handler").isSome) :
    ∀ (os : List Content) (log : List Bytes) (s : σ),
      (∀ s', c.notifyAll os s = (.ok (), s') → (c.watched extra).notifyAll os (s, log) = (.ok (), (s', log ++ os.flatMap (callsFor c.alias (c.has extra))))) ∧
      (∀ e s', c.notifyAll os s = (.error e, s') → ∃ before o after calls, os = before ++ o :: after ∧ calls <+: callsFor c.alias (c.has extra) o ∧ calls ≠ [] ∧
        (c.watched extra).notifyAll os (s, log) = (.error e, (s', log ++ (before.flatMap (callsFor c.alias (c.has extra)) ++ calls))))
  | [], log, s => by
    refine ⟨fun s' h => ?_, fun e s' h => (by cases h)⟩
    cases h
    simp [ViewerClass.notifyAll, DM.pure]
  | o :: os, log, s => by
    obtain ⟨n1, n2⟩ := noted_notify c hk extra hb ha log o s
    unfold ViewerClass.notifyAll
    cases hm : c.notify (.fresh o) s with
    | mk r s1 =>
      cases r with
      | ok u =>
        have e1 := n1 u s1 hm
        obtain ⟨i1, i2⟩ := C136_order c hk extra hb ha os (log ++ callsFor c.alias (c.has extra) o) s1
        rw [DM.bind_eq hm, DM.bind_eq e1]
        refine ⟨fun s' h => ?_, fun e s' h => ?_⟩
        · rw [i1 s' h, List.flatMap_cons, List.append_assoc]
        · obtain ⟨before, o', after, calls, h1, h2, h3, h4⟩ := i2 e s' h
          exact ⟨o :: before, o', after, calls, by rw [h1]; rfl, h2, h3, by rw [h4, List.flatMap_cons, List.append_assoc, List.append_assoc]⟩
      | error e =>
        obtain ⟨done, h1, h2, h3⟩ := n2 e s1 hm
        rw [DM.bind_error hm, DM.bind_error h3]
        refine ⟨fun s' h => (by cases h), fun e' s' h => ?_⟩
        cases h
        exact ⟨[], o, os, done, rfl, h1, h2, rfl⟩

/-- A class of viewers with a counter: `on_Td` counts, `before_Q` refuses. -/
def countingClass : ViewerClass Nat :=
  { alias := id,
    handler := fun n =>
      if n = b!"before_handler" ∨ n = b!"after_handler" then some fun o => DM.pure (.ok o)
      else if n = b!"on_Td" then some fun o k => (.ok o, k + 1)
      else if n = b!"before_Q" then some fun _ => DM.pure (.error .valueError)
      else none }

theorem counting_keeps : countingClass.KeepsNames := by
  intro n f o s o' s' hn e
  unfold countingClass at hn
  dsimp only at hn
  split at hn
  · cases hn; cases e; rfl
  split at hn
  · cases hn; cases e; rfl
  split at hn
  · cases hn; cases e
  · cases hn

/-- The viewer counts one `Td` and raises at `Q`; it has got as far as `before_Q`, and the last object is not handled. -/
example : countingClass.notifyAll [.op b!"Td" [], .op b!"Q" [], .op b!"Td" []] 5 = (.error .valueError, 6) ∧
    (countingClass.watched fun n => n == b!"after_Td").notifyAll [.op b!"Td" [], .op b!"Q" [], .op b!"Td" []] (5, []) =
      (.error .valueError, (6, [b!"before_handler", b!"on_Td", b!"after_Td", b!"after_handler", b!"before_handler", b!"before_Q"])) := by
  have e : countingClass.notifyAll [.op b!"Td" [], .op b!"Q" [], .op b!"Td" []] 5 = (.error .valueError, 6) := rfl
  obtain ⟨before, o, after, calls, _⟩ := (C136_order countingClass counting_keeps (fun n => n == b!"after_Td") rfl rfl _ [] 5).2 _ _ e
  exact ⟨e, rfl⟩

/-! ### SimplePDFViewer -/

theorem plainArgs_obj : ∀ os : List Obj, plainArgs (os.map .obj) = some os
  | [] => rfl
  | o :: os => by rw [List.map_cons, plainArgs, plainArgs_obj os]; rfl

theorem handler_on (h : Host) (res : Resources) (a : Bytes) : (simpleClass h res).handler (b!"on" ++ (b!"_" ++ a)) = if a ∈ onNames then some (onSeen h res a) else none := by
  unfold simpleClass
  dsimp only
  rw [if_neg (by simp), if_neg (by simp), if_neg (by simp), if_neg (by simp), if_neg (by simp), if_neg (by simp)]
  have e : (b!"on" ++ (b!"_" ++ a)).drop 3 = a := rfl
  have e' : (b!"on" ++ (b!"_" ++ a)).take 3 = b!"on_" := rfl
  rw [e, e']
  simp

theorem handler_before (h : Host) (res : Resources) (a : Bytes) : (simpleClass h res).handler (b!"before" ++ (b!"_" ++ a)) =
    if a = b!"handler" then some (fun o => DM.pure (.ok o)) else if a = b!"Do" then some (leaving saveState) else if a = b!"navigate" then some (fun o => DM.pure (.ok o)) else none := by
  by_cases h1 : a = b!"handler"
  · subst h1; rfl
  · by_cases h2 : a = b!"Do"
    · subst h2; rfl
    · by_cases h3 : a = b!"navigate"
      · subst h3; rfl
      · rw [if_neg h1, if_neg h2, if_neg h3]
        unfold simpleClass
        dsimp only
        rw [if_neg (by simpa using h1), if_neg (by simp), if_neg (by simpa using h2), if_neg (by simp), if_neg (by simpa using h3), if_neg (by simp), if_neg (by simp)]

theorem handler_after (h : Host) (res : Resources) (a : Bytes) : (simpleClass h res).handler (b!"after" ++ (b!"_" ++ a)) =
    if a = b!"handler" then some (fun o => leaving (addText (printSeen o)) o) else if a = b!"Do" then some (leaving restoreState)
    else if a = b!"navigate" then some (leaving resetPaint) else none := by
  by_cases h1 : a = b!"handler"
  · subst h1; rfl
  · by_cases h2 : a = b!"Do"
    · subst h2; rfl
    · by_cases h3 : a = b!"navigate"
      · subst h3; rfl
      · rw [if_neg h1, if_neg h2, if_neg h3]
        unfold simpleClass
        dsimp only
        rw [if_neg (by simp), if_neg (by simpa using h1), if_neg (by simp), if_neg (by simpa using h2), if_neg (by simp), if_neg (by simpa using h3), if_neg (by simp)]

theorem pure_bind {σ α β : Type} (a : α) (f : α → DM σ β) : (DM.pure (.ok a) : DM σ α).bind f = f a := rfl

theorem leaving_bind {β : Type} (m : DM Paint Unit) (o : Seen) (f : Seen → DM Paint β) : (leaving m o).bind f = m.bind fun _ => f o := by
  unfold leaving; rw [dm_assoc]; rfl

theorem bind_unit {σ : Type} (m : DM σ Unit) : m.bind (fun _ => DM.pure (.ok ())) = m := by
  funext s
  unfold DM.bind
  cases h : m s with
  | mk r s1 => cases r <;> rfl

theorem onOperator_other (h : Host) (res : Resources) (onDo : List Obj → DM Paint Unit) {a : Bytes} (ha : a ∉ onNames) (os : List Obj) :
    onOperator h res onDo a os = DM.pure (.ok (os.map .obj)) := by
  simp only [onNames, List.mem_cons, List.not_mem_nil, or_false, not_or] at ha
  obtain ⟨h1, h2, h3, h4, h5, h6, h7, h8, h9, h10, h11, h12, h13, h14, h15, h16, h17, h18, h19, h20, h21, h22, h23, h24⟩ := ha
  unfold onOperator
  dsimp only
  rw [if_neg h1, if_neg h2, if_neg h3, if_neg h4, if_neg h5, if_neg h6, if_neg h7, if_neg h8, if_neg h9, if_neg h10, if_neg h11, if_neg h12, if_neg h13, if_neg h14,
    if_neg (by rintro (e | e); exact h15 e; exact h16 e), if_neg (by rintro (e | e); exact h17 e; exact h18 e), if_neg (by rintro (e | e); exact h20 e; exact h21 e),
    if_neg h22, if_neg h23, if_neg h24]
  rfl

theorem simple_op (h : Host) (res : Resources) (name : Bytes) (args : List Obj) :
    (simpleClass h res).notify (.fresh (.op name args)) = notifyOp h res (onDoPage h res) resetPaint name args := by
  have hb : (simpleClass h res).handler b!"before_handler" = some fun o => DM.pure (.ok o) := rfl
  have ha : (simpleClass h res).handler b!"after_handler" = some fun o => leaving (addText (printSeen o)) o := rfl
  unfold ViewerClass.notify ViewerClass.required
  rw [hb, ha]
  dsimp only
  rw [pure_bind]
  have hon : ∀ f : Seen → DM Paint Unit, ((simpleClass h res).optional (b!"on" ++ (b!"_" ++ aliasOf name)) (.op name (args.map .obj))).bind f =
      (onOperator h res (onDoPage h res) (aliasOf name) args).bind fun shown => f (.op name shown) := by
    intro f
    by_cases hm : aliasOf name ∈ onNames
    · rw [optional_some (by rw [handler_on, if_pos hm])]
      unfold onSeen
      dsimp only
      rw [plainArgs_obj]
      dsimp only
      rw [dm_assoc]
      rfl
    · rw [optional_none (by rw [handler_on, if_neg hm]), onOperator_other h res _ hm]
      rfl
  have hbf : ∀ f : Seen → DM Paint Unit, ((simpleClass h res).optional (b!"before" ++ (b!"_" ++ aliasOf name)) (.op name (args.map .obj))).bind f =
      (if aliasOf name = b!"Do" then saveState else DM.pure (.ok ())).bind fun _ => f (.op name (args.map .obj)) := by
    intro f
    have hh := handler_before h res (aliasOf name)
    by_cases h1 : aliasOf name = b!"handler"
    · rw [if_pos h1] at hh
      rw [optional_some hh, if_neg (by rw [h1]; decide)]; rfl
    · rw [if_neg h1] at hh
      by_cases h2 : aliasOf name = b!"Do"
      · rw [if_pos h2] at hh
        rw [optional_some hh, if_pos h2, leaving_bind]
      · rw [if_neg h2] at hh ⊢
        by_cases h3 : aliasOf name = b!"navigate"
        · rw [if_pos h3] at hh
          rw [optional_some hh]; rfl
        · rw [if_neg h3] at hh
          rw [optional_none hh]; rfl
  have haf : ∀ (shown : List Arg) (f : Seen → DM Paint Unit), ((simpleClass h res).optional (b!"after" ++ (b!"_" ++ aliasOf name)) (.op name shown)).bind f =
      (if aliasOf name = b!"Do" then restoreState else if aliasOf name = b!"navigate" then resetPaint
        else if aliasOf name = b!"handler" then addText (printOp name shown) else DM.pure (.ok ())).bind fun _ => f (.op name shown) := by
    intro shown f
    have hh := handler_after h res (aliasOf name)
    by_cases h1 : aliasOf name = b!"handler"
    · rw [if_pos h1] at hh
      rw [optional_some hh, if_neg (by rw [h1]; decide), if_neg (by rw [h1]; decide), if_pos h1, leaving_bind]; rfl
    · rw [if_neg h1] at hh
      by_cases h2 : aliasOf name = b!"Do"
      · rw [if_pos h2] at hh
        rw [optional_some hh, if_pos h2, leaving_bind]
      · rw [if_neg h2] at hh ⊢
        by_cases h3 : aliasOf name = b!"navigate"
        · rw [if_pos h3] at hh
          rw [optional_some hh, if_pos h3, leaving_bind]
        · rw [if_neg h3] at hh
          rw [optional_none hh, if_neg h3, if_neg h1]; rfl
  show ((((simpleClass h res).optional (b!"before" ++ (b!"_" ++ aliasOf name)) (.op name (args.map .obj))).bind fun o =>
    ((simpleClass h res).optional ((simpleClass h res).handlerName b!"on" o) o).bind fun o =>
      ((simpleClass h res).optional ((simpleClass h res).handlerName b!"after" o) o).bind fun o => DM.pure (.ok o))).bind _ = _
  rw [dm_assoc, hbf]
  unfold notifyOp
  congr 1
  funext _
  rw [dm_assoc]
  show ((simpleClass h res).optional (b!"on" ++ (b!"_" ++ aliasOf name)) (.op name (args.map .obj))).bind _ = _
  rw [hon]
  congr 1
  funext shown
  rw [dm_assoc]
  show ((simpleClass h res).optional (b!"after" ++ (b!"_" ++ aliasOf name)) (.op name shown)).bind _ = _
  rw [haf]
  congr 1
  funext _
  rw [pure_bind, leaving_bind]
  exact bind_unit _

theorem simple_image (h : Host) (res : Resources) (d : List (Bytes × Obj)) (data : Bytes) : (simpleClass h res).notify (.fresh (.image d data)) = notifyImage d data := by
  funext p
  unfold notifyImage
  show (leaving (addText (printObj (.image d data))) (.image d data)).bind (fun _ => DM.pure (.ok ())) _ = _
  rw [leaving_bind, bind_unit]

theorem simple_all (h : Host) (res : Resources) : ∀ os, (simpleClass h res).notifyAll os = notifyAll h res (onDoPage h res) resetPaint os
  | [] => rfl
  | .op name args :: os => by
    unfold ViewerClass.notifyAll notifyAll
    rw [simple_op, simple_all h res os]
  | .image d data :: os => by
    unfold ViewerClass.notifyAll notifyAll
    rw [simple_image, simple_all h res os]

theorem simple_render (h : Host) (res : Resources) (s : Bytes) : (simpleClass h res).render s = renderPage h res s := by
  unfold ViewerClass.render renderPage renderStream
  rw [simple_all]
  cases (contentObjects s).2 <;> rfl

theorem simple_keeps (h : Host) (res : Resources) : (simpleClass h res).KeepsNames := by
  have hl : ∀ (m : DM Paint Unit) (o o' : Seen) (p p' : Paint), leaving m o p = (.ok o', p') → o'.title = o.title := by
    intro m o o' p p' e
    obtain ⟨_, _, _, e⟩ := DM.bind_ok e
    cases e; rfl
  intro n f o p o' p' hn e
  unfold simpleClass at hn
  dsimp only at hn
  split at hn
  · cases hn; cases e; rfl
  split at hn
  · cases hn; exact hl _ _ _ _ _ e
  split at hn
  · cases hn; exact hl _ _ _ _ _ e
  split at hn
  · cases hn; exact hl _ _ _ _ _ e
  split at hn
  · cases hn; cases e; rfl
  split at hn
  · cases hn; exact hl _ _ _ _ _ e
  split at hn
  · cases hn
    cases o with
    | op name args =>
      unfold onSeen at e
      dsimp only at e
      cases ha : plainArgs args with
      | none => rw [ha] at e; cases e
      | some os =>
        rw [ha] at e
        obtain ⟨_, _, _, e⟩ := DM.bind_ok e
        cases e; rfl
    | image d data => cases e; rfl
  · cases hn

theorem simple_has (h : Host) (res : Resources) (n : Bytes) : ((simpleClass h res).handler n).isSome = decide (n ∈ simpleHandlers) := by
  rw [Bool.eq_iff_iff, decide_eq_true_iff]
  constructor
  · intro e
    unfold simpleClass at e
    dsimp only at e
    split at e
    · rename_i e'; subst e'; decide
    split at e
    · rename_i e'; subst e'; decide
    split at e
    · rename_i e'; subst e'; decide
    split at e
    · rename_i e'; subst e'; decide
    split at e
    · rename_i e'; subst e'; decide
    split at e
    · rename_i e'; subst e'; decide
    split at e
    · rename_i e'
      have e2 : n = b!"on_" ++ n.drop 3 := by rw [← e'.1, List.take_append_drop]
      have hm : ∀ a ∈ onNames, b!"on_" ++ a ∈ simpleHandlers := by decide
      rw [e2]
      exact hm _ e'.2
    · cases e
  · revert n
    intro n e
    simp only [simpleHandlers, List.mem_cons, List.not_mem_nil, or_false] at e
    rcases e with e | e | e | e | e | e | e | e | e | e | e | e | e | e | e | e | e | e | e | e | e | e | e | e | e | e | e | e | e | e <;> (rw [e]; rfl)

/-- C137: watching the handlers of a SimplePDFViewer from a subclass — each handler notes that it was called and calls that of the superclass, and there
may be further ones, `extra`, which only note it — does not change what `render` does: it ends alike, with the same canvas and the same state. -/
theorem C137_unchanged (h : Host) (res : Resources) (extra : Bytes → Bool) (s : Bytes) (p : Paint) (log : List Bytes) :
    ∃ calls, ((simpleClass h res).watched extra).render s (p, log) = ((renderPage h res s p).1, ((renderPage h res s p).2, log ++ calls)) := by
  obtain ⟨h1, h2⟩ := C136_order (simpleClass h res) (simple_keeps h res) extra rfl rfl (contentObjects s).1 log p
  rw [← simple_render]
  unfold ViewerClass.render
  cases hm : (simpleClass h res).notifyAll (contentObjects s).1 p with
  | mk r p1 =>
    cases r with
    | ok u =>
      rw [DM.bind_eq hm, DM.bind_eq (h1 p1 hm)]
      cases (contentObjects s).2 <;> exact ⟨_, rfl⟩
    | error e =>
      obtain ⟨_, _, _, _, _, _, _, h4⟩ := h2 e p1 hm
      rw [DM.bind_error hm, DM.bind_error h4]
      exact ⟨_, rfl⟩

/-- … and when `render` gets to the end, the notes are the handlers of the objects of the content stream in order: `before_handler`, those of `before_…`, `on_…`
and `after_…` which SimplePDFViewer or the subclass has, and `after_handler`. -/
theorem C137_calls (h : Host) (res : Resources) (extra : Bytes → Bool) (s : Bytes) (p p' : Paint) (log : List Bytes) (e : renderPage h res s p = (.ok (), p')) :
    ((simpleClass h res).watched extra).render s (p, log) =
      (.ok (), (p', log ++ (contentObjects s).1.flatMap (callsFor simpleAlias fun n => decide (n ∈ simpleHandlers) || extra n))) := by
  obtain ⟨h1, _⟩ := C136_order (simpleClass h res) (simple_keeps h res) extra rfl rfl (contentObjects s).1 log p
  rw [← simple_render] at e
  have hs : (simpleClass h res).has extra = fun n => decide (n ∈ simpleHandlers) || extra n := by
    funext n
    unfold ViewerClass.has
    rw [simple_has]
  rw [hs] at h1
  unfold ViewerClass.render at e ⊢
  obtain ⟨_, p1, e1, e2⟩ := DM.bind_ok e
  rw [DM.bind_eq (h1 p1 e1)]
  cases hc : (contentObjects s).2 with
  | none => rw [hc] at e2; cases e2; rfl
  | some x => rw [hc] at e2; cases e2

theorem fst_is {α β : Type} {r : α × β} {a : α} (h : r.1 = a) : r = (a, r.2) := by cases r; cases h; rfl

/-- Showing a string and painting an image, watched, with a handler of its own for `Td`. -/
example : ((simpleClass plainHost sampleResources).watched fun n => n == b!"on_Td").render b!"BT 1 2 Td (a) ' ET /Im Do" ({}, []) =
    (.ok (), ((renderPage plainHost sampleResources b!"BT 1 2 Td (a) ' ET /Im Do" {}).2,
      [b!"before_handler", b!"on_BT", b!"after_handler", b!"before_handler", b!"on_Td", b!"after_handler", b!"before_handler", b!"on_apostrophe", b!"after_handler",
       b!"before_handler", b!"on_ET", b!"after_handler", b!"before_handler", b!"before_Do", b!"on_Do", b!"after_Do", b!"after_handler"])) := by
  refine (C137_calls plainHost sampleResources _ _ {} (log := []) (p' := (renderPage plainHost sampleResources b!"BT 1 2 Td (a) ' ET /Im Do" {}).2) ?_).trans ?_
  · exact fst_is (by decide +kernel)
  · have e : (contentObjects b!"BT 1 2 Td (a) ' ET /Im Do").1.flatMap (callsFor simpleAlias fun n => decide (n ∈ simpleHandlers) || n == b!"on_Td") =
      [b!"before_handler", b!"on_BT", b!"after_handler", b!"before_handler", b!"on_Td", b!"after_handler", b!"before_handler", b!"on_apostrophe", b!"after_handler",
       b!"before_handler", b!"on_ET", b!"after_handler", b!"before_handler", b!"before_Do", b!"on_Do", b!"after_Do", b!"after_handler"] := by decide +kernel
    rw [e, List.nil_append]

end PdfReader
