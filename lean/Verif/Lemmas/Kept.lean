/-
  What is on a canvas stays on it while the page is painted.
-/
import Verif.Lemmas.Painted
import Verif.Spec.Kept
import Verif.Spec.Parts
import Verif.Props.Content
import Verif.Props.Objects

namespace PdfReader
open Spec

theorem continues_refl (c : Canvas) : Continues c c := ⟨⟨[], (List.append_nil _).symm⟩, ⟨[], (List.append_nil _).symm⟩, ⟨[], (List.append_nil _).symm⟩, fun _ _ h => h, fun _ _ h => h⟩

theorem continues_trans {a b c : Canvas} (h1 : Continues a b) (h2 : Continues b c) : Continues a c := by
  obtain ⟨⟨s1, e1⟩, ⟨t1, f1⟩, ⟨i1, g1⟩, m1, o1⟩ := h1
  obtain ⟨⟨s2, e2⟩, ⟨t2, f2⟩, ⟨i2, g2⟩, m2, o2⟩ := h2
  exact ⟨⟨s1 ++ s2, by rw [e2, e1, List.append_assoc]⟩, ⟨t1 ++ t2, by rw [f2, f1, List.append_assoc]⟩, ⟨i1 ++ i2, by rw [g2, g1, List.append_assoc]⟩,
    fun n x h => m2 n x (m1 n x h), fun n f h => o2 n f (o1 n f h)⟩

/-- The images are those of the resources. -/
def Owned (res : Resources) (c : Canvas) : Prop := ∀ n x, assoc n c.images = some x → lookupResource res b!"XObject" (some n) = .ok (some x)

/-- The computation, whether it fails or not, only adds to the canvas. -/
def Adds {α : Type} (res : Resources) (m : DM Paint α) : Prop := ∀ p, Owned res p.canvas → Owned res (m p).2.canvas ∧ Continues p.canvas (m p).2.canvas

section
variable {res : Resources}

theorem adds_same {α : Type} {m : DM Paint α} (h : ∀ p, (m p).2.canvas = p.canvas) : Adds res m := fun p ho => by rw [h p]; exact ⟨ho, continues_refl _⟩

theorem adds_pure {α : Type} (r : Res α) : Adds res (DM.pure r) := adds_same fun _ => rfl

theorem adds_bind {α β : Type} {m : DM Paint α} {f : α → DM Paint β} (h1 : Adds res m) (h2 : ∀ a, Adds res (f a)) : Adds res (m.bind f) := by
  intro p ho
  have e := h1 p ho
  unfold DM.bind
  generalize m p = r at e ⊢
  obtain ⟨r, s⟩ := r
  cases r with
  | error x => exact e
  | ok a =>
    have := h2 a s e.1
    exact ⟨this.1, continues_trans e.2 this.2⟩

theorem adds_ite {α : Type} {c : Prop} [Decidable c] {a b : DM Paint α} (h1 : Adds res a) (h2 : Adds res b) : Adds res (if c then a else b) := by
  split
  · exact h1
  · exact h2

theorem adds_setField (k : Bytes) (v : Val) : Adds res (setField k v) := by
  refine adds_same fun p => ?_
  obtain ⟨g, gs, _, e⟩ := setField_ok k v p
  rw [e]

theorem adds_save : Adds res saveState := by
  refine adds_same fun p => ?_
  unfold saveState
  split
  · rfl
  · split <;> rfl

theorem adds_addText (r : Res Text) : Adds res (addText r) := by
  intro p ho
  cases r with
  | error e => exact ⟨ho, continues_refl _⟩
  | ok t => exact ⟨ho, ⟨[], (List.append_nil _).symm⟩, ⟨t, rfl⟩, ⟨[], (List.append_nil _).symm⟩, fun _ _ h => h, fun _ _ h => h⟩

theorem adds_addString (t : Text) : Adds res (addString t) := fun _ ho =>
  ⟨ho, ⟨[t], rfl⟩, ⟨[], (List.append_nil _).symm⟩, ⟨[], (List.append_nil _).symm⟩, fun _ _ h => h, fun _ _ h => h⟩

theorem adds_decodeString (h : Host) (rs : Resources) (o : Obj) : Adds res (decodeString h rs o) := by
  refine adds_same fun p => ?_
  unfold decodeString
  dsimp only
  split
  · rfl
  · split
    · rfl
    · split <;> rfl

theorem adds_keep (args : List Obj) {m : DM Paint Unit} (h : Adds res m) : Adds res (keep args m) := adds_bind h fun _ => adds_pure _

theorem adds_showOne (h : Host) (rs : Resources) (args : List Obj) : Adds res (showOne h rs args) :=
  adds_bind (adds_pure _) fun o => adds_bind (adds_decodeString h rs o) fun t => adds_bind (adds_addString t) fun _ => adds_pure _

theorem adds_showEach (h : Host) (rs : Resources) : ∀ os, Adds res (showEach h rs os)
  | [] => adds_pure _
  | o :: os => by
    unfold showEach
    split
    · exact adds_bind (adds_decodeString h rs _) fun t => adds_bind (adds_addString t) fun _ => adds_bind (adds_showEach h rs os) fun _ => adds_pure _
    · exact adds_bind (adds_decodeString h rs _) fun t => adds_bind (adds_addString t) fun _ => adds_bind (adds_showEach h rs os) fun _ => adds_pure _
    · exact adds_bind (adds_showEach h rs os) fun _ => adds_pure _

theorem adds_showMany (h : Host) (rs : Resources) (args : List Obj) : Adds res (showMany h rs args) := by
  refine adds_bind (adds_pure _) fun o => ?_
  split
  · exact adds_bind (adds_showEach h rs _) fun _ => adds_pure _
  all_goals exact adds_pure _

theorem adds_decodeProps (h : Host) (rs : Resources) (args : List Obj) : Adds res (decodeProps h rs args) := by
  unfold decodeProps
  split
  · split
    · exact adds_bind (adds_decodeString h rs _) fun _ => adds_pure _
    · exact adds_pure _
  all_goals exact adds_pure _

theorem adds_applyGs (h : Host) (rs : Resources) (args : List Obj) : Adds res (applyGs h rs args) := by
  refine adds_bind (adds_pure _) fun o => adds_bind (adds_pure _) fun k => adds_bind (adds_pure _) fun v => ?_
  split
  · exact adds_pure _
  · split
    · refine adds_same fun p => ?_
      dsimp only
      split
      · split
        · rfl
        · split
          · rfl
          · split
            · rfl
            · split <;> rfl
      · rfl
    · exact adds_pure _

theorem adds_onOperator (h : Host) (rs : Resources) (onDo : List Obj → DM Paint Unit) (hdo : ∀ args, Adds res (onDo args)) (name : Bytes) (args : List Obj) :
    Adds res (onOperator h rs onDo name args) := by
  have first : ∀ k, Adds res (keep args ((DM.pure (arg0 args)).bind fun o => setField k (.atom o))) := fun k =>
    adds_keep args (adds_bind (adds_pure _) fun o => adds_setField k _)
  unfold onOperator
  refine adds_ite (adds_keep args adds_save) ?_
  refine adds_ite (adds_keep args (adds_same fun _ => rfl)) ?_
  refine adds_ite (adds_keep args (adds_setField _ _)) ?_
  refine adds_ite (first _) ?_
  refine adds_ite (first _) ?_
  refine adds_ite (first _) ?_
  refine adds_ite (first _) ?_
  refine adds_ite (adds_keep args (adds_setField _ _)) ?_
  refine adds_ite (first _) ?_
  refine adds_ite (first _) ?_
  refine adds_ite (adds_keep args (adds_applyGs h rs args)) ?_
  refine adds_ite (adds_keep args (adds_same fun _ => rfl)) ?_
  refine adds_ite (adds_keep args (adds_same fun _ => rfl)) ?_
  refine adds_ite (adds_keep args (adds_setField _ _)) ?_
  refine adds_ite (adds_showOne h rs args) ?_
  refine adds_ite (adds_showMany h rs args) ?_
  refine adds_ite (adds_decodeProps h rs args) ?_
  refine adds_ite (adds_keep args (hdo args)) ?_
  refine adds_ite (adds_keep args fun p ho => ⟨ho, ⟨[], (List.append_nil _).symm⟩, ⟨[], (List.append_nil _).symm⟩, ⟨_, rfl⟩, fun _ _ h => h, fun _ _ h => h⟩) ?_
  exact adds_ite (adds_pure _) (adds_keep args (adds_pure _))

theorem adds_notifyOp (h : Host) (rs : Resources) (onDo : List Obj → DM Paint Unit) (hdo : ∀ args, Adds res (onDo args)) (onNav : DM Paint Unit) (name : Bytes) (args : List Obj)
    (h2 : name ≠ b!"navigate") : Adds res (notifyOp h rs onDo onNav name args) := by
  have a2 : aliasOf name ≠ b!"navigate" := fun e => h2 (alias_self e (by decide) (by decide) (by decide))
  unfold notifyOp
  refine adds_bind (adds_ite adds_save (adds_pure _)) fun _ => adds_bind (adds_onOperator h rs onDo hdo _ args) fun b => ?_
  rw [if_neg a2]
  exact adds_bind (adds_ite (adds_same fun _ => rfl) (adds_ite (adds_addText _) (adds_pure _))) fun _ => adds_addText _

theorem adds_notifyImage (d : List (Bytes × Obj)) (data : Bytes) : Adds res (notifyImage d data) := by
  intro p ho
  have h1 : Continues p.canvas { p.canvas with inline := p.canvas.inline ++ [.image d data] } :=
    ⟨⟨[], (List.append_nil _).symm⟩, ⟨[], (List.append_nil _).symm⟩, ⟨_, rfl⟩, fun _ _ h => h, fun _ _ h => h⟩
  have := adds_addText (res := res) (printObj (.image d data)) { p with canvas := { p.canvas with inline := p.canvas.inline ++ [.image d data] } } ho
  exact ⟨this.1, continues_trans h1 this.2⟩

theorem adds_paint (h : Host) (name : Bytes) (x : Val) (hx : lookupResource res b!"XObject" (some name) = .ok (some x)) : Adds res (paintXObject h name x) := by
  intro p ho
  unfold paintXObject
  split
  · split
    · exact ⟨ho, continues_refl _⟩
    · rename_i hnf
      split
      · refine ⟨?_, ⟨[], (List.append_nil _).symm⟩, ⟨[], (List.append_nil _).symm⟩, ⟨[], (List.append_nil _).symm⟩, ?_, fun _ _ h => h⟩
        · intro n y hy
          dsimp only at hy
          rw [assoc_set] at hy
          by_cases hn : name = n
          · rw [if_pos hn] at hy
            cases hy
            rw [← hn]
            exact hx
          · rw [if_neg hn] at hy
            exact ho n y hy
        · intro n y hy
          dsimp only
          rw [assoc_set]
          by_cases hn : name = n
          · rw [if_pos hn]
            subst hn
            have := ho name y hy
            rw [hx] at this
            cases this
            rfl
          · rw [if_neg hn]
            exact hy
      · split
        · split
          · exact ⟨ho, continues_refl _⟩
          · split
            · exact ⟨ho, continues_refl _⟩
            · unfold renderForm
              split
              · exact ⟨ho, continues_refl _⟩
              · refine ⟨ho, ⟨[], (List.append_nil _).symm⟩, ⟨[], (List.append_nil _).symm⟩, ⟨[], (List.append_nil _).symm⟩, fun _ _ h => h, ?_⟩
                intro n f hf
                dsimp only
                rw [assoc_set]
                by_cases hn : name = n
                · subst hn
                  rw [hf] at hnf
                  exact absurd rfl hnf
                · rw [if_neg hn]
                  exact hf
        · exact ⟨ho, continues_refl _⟩
  · exact ⟨ho, continues_refl _⟩

theorem adds_onDo (h : Host) (args : List Obj) : Adds res (onDoPage h res args) := by
  unfold onDoPage
  refine adds_bind (adds_pure _) fun o => adds_bind (adds_pure _) fun k => ?_
  intro p ho
  cases k with
  | none =>
    unfold DM.bind DM.pure
    dsimp only
    cases lookupResource res b!"XObject" none <;> exact ⟨ho, continues_refl _⟩
  | some name =>
    unfold DM.bind DM.pure
    dsimp only
    cases e : lookupResource res b!"XObject" (some name) with
    | error x => exact ⟨ho, continues_refl _⟩
    | ok v =>
      cases v with
      | none => exact ⟨ho, continues_refl _⟩
      | some x => exact adds_paint h name x e p ho

/-- No command calls a method of the viewer. -/
def NoNavigate (cs : List Content) : Prop := ∀ args, Content.op b!"navigate" args ∉ cs

theorem adds_all (h : Host) : ∀ cs : List Content, NoNavigate cs → Adds res (notifyAll h res (onDoPage h res) resetPaint cs)
  | [], _ => adds_pure _
  | .op name args :: cs, hn =>
    adds_bind (adds_notifyOp h res _ (adds_onDo h) _ name args (by rintro rfl; exact hn args List.mem_cons_self)) fun _ =>
      adds_all h cs fun a ha => hn a (List.mem_cons_of_mem _ ha)
  | .image d data :: cs, hn => adds_bind (adds_notifyImage d data) fun _ => adds_all h cs fun a ha => hn a (List.mem_cons_of_mem _ ha)
end

/-! ### The commands of the beginning of a content -/

/-- What is read of the content when some operands have been read already. -/
def readOn (ops : List Obj) (inp : Bytes) : List Content × Option Exc := afterBlanks inp (contentLoop (inp.length + 1) ops)

theorem readOn_fuel (ops : List Obj) (inp : Bytes) (f : Nat) (hf : inp.length < f) : afterBlanks inp (contentLoop f ops) = readOn ops inp := by
  unfold readOn afterBlanks
  cases h : skipSC false inp with
  | error e => rfl
  | ok r =>
    have := skip_le h
    exact contentLoop_fuel f _ ops r (by omega) (by omega)

theorem readOn_sep {s : Bytes} (hs : Spec.Sep s) (ops : List Obj) (x : Bytes) : readOn ops (s ++ x) = readOn ops x := by
  rw [← readOn_fuel ops x ((s ++ x).length + 1) (by simp; omega)]
  unfold readOn afterBlanks
  rw [skipSC_sep_append hs]

theorem readOn_op {t u : Bytes} (ho : OpText t) (hu : Stop u) (ops : List Obj) : readOn ops (t ++ u) = (.op t ops :: (readOn [] u).1, (readOn [] u).2) := by
  obtain ⟨c, t', ht, hr, _⟩ := opText_head ho
  have hne : t ++ u ≠ [] := by rw [ht]; simp
  have hp := parse_op (s := []) ho .nil hu
  rw [List.nil_append] at hp
  have hlt := parse_lt hp
  have hsk : skipSC false (t ++ u) = .ok (t ++ u) := skipSC_nonsep (by rw [ht, List.cons_append]; exact regular_notSep hr)
  unfold readOn afterBlanks
  rw [hsk]
  dsimp only
  rw [contentLoop, if_neg hne, hp]
  simp only [isOperatorTok_of ho, if_true]
  rw [readOn_fuel [] u _ hlt]
  rfl

theorem readOn_image {d : List (Bytes × Obj)} {data t : Bytes} (hi : ImgText d data t) (u : Bytes) (ops : List Obj) :
    readOn ops (b!"BI" ++ (t ++ u)) = (.image d data :: (readOn [] u).1, (readOn [] u).2) := by
  have hp := parse_image (s := []) (u := u) hi .nil
  rw [List.nil_append] at hp
  have hlt := parse_lt hp
  have hsk : skipSC false (b!"BI" ++ (t ++ u)) = .ok (b!"BI" ++ (t ++ u)) := skipSC_nonsep (regular_notSep (c := 66) rfl)
  unfold readOn afterBlanks
  rw [hsk]
  dsimp only
  rw [contentLoop, if_neg (by simp), hp]
  dsimp only
  rw [readOn_fuel [] u _ hlt]
  rfl

theorem readOn_operand {o : Obj} {t s' r : Bytes} (hd : Den false (.obj o) t) (hs' : Spec.Sep s') (hr : NotStart SepChar r) (hst : needsStop o = true → Stop (s' ++ r))
    (hns : (∃ d, o = .dict d) → NotStart (· = 115) r) (ops : List Obj) : readOn ops (t ++ (s' ++ r)) = readOn (ops ++ [o]) (s' ++ r) := by
  obtain ⟨c, t', ht, hc⟩ := den_head hd
  have hne : t ++ (s' ++ r) ≠ [] := by rw [ht]; simp
  have hfol : Follow contentCfg.refs o s' r := { sep := hs', rest := hr, stop := hst, look := (fun h => by cases h), noStream := hns }
  have hp := parse_den contentCfg contentCfg_noDiv (s0 := []) hd .nil hfol
  rw [List.nil_append] at hp
  have hlt := parse_lt hp
  have hsk := leftover_skip (o := o) hs' hr
  have hle := skip_le hsk
  have hskt : skipSC false (t ++ (s' ++ r)) = .ok (t ++ (s' ++ r)) := skipSC_nonsep (by rw [ht, List.cons_append]; exact objStart_notSep hc)
  rw [readOn_sep hs']
  have hnr : readOn (ops ++ [o]) r = contentLoop (t ++ (s' ++ r)).length (ops ++ [o]) r := by
    rw [← readOn_fuel _ r (t ++ (s' ++ r)).length (by omega)]
    unfold afterBlanks
    rw [skipSC_nonsep hr]
  rw [hnr]
  unfold readOn afterBlanks
  rw [hskt]
  dsimp only
  rw [contentLoop, if_neg hne, hp]
  have hnt : ∀ a, o ≠ .token a := fun a ha => den_not_token hd a (by rw [ha])
  have hni : ∀ a b, o ≠ .image a b := by
    intro a b e; subst e; cases hd
  have fin : afterBlanks (leftover o s' r) (contentLoop (t ++ (s' ++ r)).length (ops ++ [o])) = contentLoop (t ++ (s' ++ r)).length (ops ++ [o]) r := by
    unfold afterBlanks
    rw [hsk]
  cases o <;> first | exact fin | exact absurd rfl (hnt _) | exact absurd rfl (hni _ _)

/-- The commands at the beginning are read, whatever comes after them. -/
theorem part_then {ops ops' : List Obj} {cs : List Content} {a : Bytes} (h : PartText ops cs ops' a) (x : Bytes) (hx : ops' ≠ [] → False) :
    readOn ops (a ++ x) = (cs ++ (readOn [] x).1, (readOn [] x).2) := by
  induction h with
  | done ops s hs =>
    have : ops = [] := Classical.byContradiction hx
    subst this
    rw [readOn_sep hs]
    rfl
  | last ops s o t s' _ _ _ _ _ => exact (hx (by simp)).elim
  | operand ops cs ops' s o t s' c r hs hd hs' hc hst hns hrest ih =>
    rw [List.append_assoc, readOn_sep hs, List.append_assoc, List.append_assoc, List.cons_append]
    rw [readOn_operand hd hs' (notStart_mk hc) (fun hn => by rw [← List.cons_append, ← List.append_assoc]; exact ended_then (hst hn))
      (fun hdic => notStart_mk (hns hdic))]
    have := ih hx
    rw [List.append_assoc, List.cons_append] at this
    exact this
  | op ops cs ops' s t u hs ho hu _ ih =>
    rw [List.append_assoc, readOn_sep hs, List.append_assoc, readOn_op ho (ended_then hu), ih hx]
    rfl
  | image ops cs ops' s d data t u hs hi _ ih =>
    rw [List.append_assoc, readOn_sep hs, List.append_assoc, List.append_assoc, readOn_image hi, ih hx]
    rfl
where
  ended_then {s x : Bytes} (h : Ended s) : Stop (s ++ x) := by
    obtain ⟨c, t, rfl, hc⟩ := h
    exact notStart_mk hc

end PdfReader
