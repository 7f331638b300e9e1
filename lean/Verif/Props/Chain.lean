/-
  C149: chains of references.
-/
import Verif.Model.Deep
import Verif.Spec.Chain
import Verif.Props.Layout

namespace PdfReader

open Spec

variable {σ : Type} {I : σ → Prop} {loc : Locator σ} {filtered : List (Bytes × Obj) → Bytes → Res Bytes}

theorem leads_pos {store : Store} {n g k : Nat} {o : Obj} (h : Leads store n g k o) : 1 ≤ k := by
  cases h <;> omega

theorem built_atomic {f : Nat} {vis : List Key} {o : Obj} (h : Atomic o) : Gives I (build loc (f + 2) vis o) (.atom o) := by
  intro s hs
  cases o <;> first | exact h.elim | exact ⟨rfl, hs⟩

/-- One reference is followed, whatever is behind it. -/
theorem build_next {store : Store} (hd : Delivers loc I store) {f n g : Nat} {vis : List Key} {o : Obj} (hs : store n g = some o) (hv : (n, g) ∉ vis)
    (ho : Atomic o ∨ ∃ a b, o = .ref a b) : Gives I (build loc (f + 2) vis (.ref n g)) (.atom o) := by
  have hf : Gives I (factory loc (f + 1) o) (.atom o) := by
    intro s hI
    rcases ho with h | ⟨a, b, rfl⟩
    · cases o <;> first | exact h.elim | exact ⟨rfl, hI⟩
    · exact ⟨rfl, hI⟩
  have hl : Gives I (loc n g) o := fun s hI => hd n g o s hI hs
  unfold build
  dsimp only
  rw [if_neg hv]
  exact gives_bind hl (gives_bind hf (gives_pure _))

/-- C149: an entry which is a reference to an object, which is no reference, reads as this object. What is missing: longer chains (C149_longer_partial). -/
theorem C149_one_partial {store : Store} (hd : Delivers loc I store) (c : Option Bytes) (es : List (Bytes × Obj)) (key : Bytes) (n g : Nat) (o : Obj) (v : Val)
    (he : dictGet es key = some (.ref n g)) (h : Leads store n g 1 o) (hv : Reads store o v) :
    ∃ F, ∀ fuel, F ≤ fuel → Gives I (attr loc fuel (.dict c es) key) v := by
  cases h with
  | here _ _ _ h1 h2 => exact entry_reads hd ⟨_, he, .ref n g o v h1 h2 hv⟩
  | step _ _ n' g' k _ _ h2 => exact absurd (leads_pos h2) (by omega)

/-- C149: an entry which leads to its object over another reference reads as that reference, however long the chain is. -/
theorem C149_longer_partial {store : Store} (hd : Delivers loc I store) (c : Option Bytes) (es : List (Bytes × Obj)) (key : Bytes) (n g k : Nat) (o : Obj)
    (he : dictGet es key = some (.ref n g)) (h : Leads store n g (k + 2) o) :
    ∃ n' g', store n g = some (.ref n' g') ∧ Leads store n' g' (k + 1) o ∧ ∀ fuel, 2 ≤ fuel → Gives I (attr loc fuel (.dict c es) key) (.atom (.ref n' g')) := by
  cases h with
  | step _ _ n' g' _ _ h1 h2 =>
    refine ⟨n', g', h1, h2, fun fuel hf => ?_⟩
    obtain ⟨f, rfl⟩ : ∃ f, fuel = f + 2 := ⟨fuel - 2, by omega⟩
    have := build_next (loc := loc) (I := I) hd (f := f) (vis := []) h1 (by simp) (Or.inr ⟨_, _, rfl⟩)
    intro s hI
    obtain ⟨e, i⟩ := this s hI
    unfold attr entry
    dsimp only
    rw [he]
    dsimp only
    generalize build loc (f + 2) [] (.ref n g) s = r at e i
    obtain ⟨r1, r2⟩ := r
    cases e
    exact ⟨rfl, i⟩

/-- The elements of an array which is reached by a reference are built twice. -/
theorem near_built {store : Store} (hd : Delivers loc I store) {f a b : Nat} {zs : List Obj} (harr : store a b = some (.arr zs)) {xs ys : List Obj} (h : AllNear store xs ys) :
    ∃ ws, Gives I (DM.mapM (build loc (f + 3) []) xs) ws ∧ Gives I (DM.mapM (rebuild loc (f + 4) [(a, b)]) ws) (ys.map .atom) := by
  induction h with
  | nil => exact ⟨[], gives_mapM_nil _, gives_mapM_nil _⟩
  | cons x y xs ys h1 _ ih =>
    obtain ⟨ws, i1, i2⟩ := ih
    have key : ∃ w, Gives I (build loc (f + 3) [] x) w ∧ Gives I (rebuild loc (f + 4) [(a, b)] w) (.atom y) := by
      cases h1 with
      | self _ hy => exact ⟨.atom x, built_atomic hy, built_atomic hy⟩
      | ref n g k _ hl hk hy =>
        have other : ∀ {n' g' o}, store n' g' = some o → Atomic o → (n', g') ∉ [(a, b)] := by
          intro n' g' o hs ho hm
          rw [List.mem_singleton] at hm
          cases hm
          rw [harr] at hs
          cases hs
          exact ho
        cases hl with
        | here _ _ _ h2 _ => exact ⟨.atom y, build_next hd h2 (by simp) (Or.inl hy), built_atomic hy⟩
        | step _ _ n' g' k' _ h2 h3 =>
          cases h3 with
          | here _ _ _ h4 _ => exact ⟨.atom (.ref n' g'), build_next hd h2 (by simp) (Or.inr ⟨_, _, rfl⟩), build_next hd h4 (other h4 hy) (Or.inl hy)⟩
          | step _ _ _ _ _ _ _ h5 => exact absurd (leads_pos h5) (by omega)
    obtain ⟨w, k1, k2⟩ := key
    exact ⟨w :: ws, gives_mapM_cons k1 i1, gives_mapM_cons k2 i2⟩

/-- C149: in an array which is itself reached by a reference, elements are found also over one other reference. What is missing: longer chains, and
arrays written in place (C149_elements_counterexample). -/
theorem C149_array_partial {store : Store} (hd : Delivers loc I store) (c : Option Bytes) (es : List (Bytes × Obj)) (key : Bytes) (a b : Nat) (xs ys : List Obj)
    (he : dictGet es key = some (.ref a b)) (harr : store a b = some (.arr xs)) (h : AllNear store xs ys) :
    ∀ fuel, 5 ≤ fuel → Gives I (attr loc fuel (.dict c es) key) (.arr (ys.map .atom)) := by
  intro fuel hf
  obtain ⟨f, rfl⟩ : ∃ f, fuel = f + 5 := ⟨fuel - 5, by omega⟩
  obtain ⟨ws, h1, h2⟩ := near_built (loc := loc) (I := I) hd (f := f) harr h
  have hfac : Gives I (factory loc (f + 4) (.arr xs)) (.arr ws) := gives_bind h1 (gives_pure _)
  have hl : Gives I (loc a b) (.arr xs) := fun s hI => hd a b _ s hI harr
  have hb : Gives I (build loc (f + 5) [] (.ref a b)) (.arr (ys.map .atom)) := by
    unfold build
    dsimp only
    rw [if_neg (by simp)]
    exact gives_bind hl (gives_bind hfac (gives_bind h2 (gives_pure _)))
  intro s hI
  obtain ⟨e, i⟩ := hb s hI
  unfold attr entry
  dsimp only
  rw [he]
  dsimp only
  generalize build loc (f + 5) [] (.ref a b) s = r at e i
  obtain ⟨r1, r2⟩ := r
  cases e
  exact ⟨rfl, i⟩

/-- C149: deep_obj_by_ref, which is to follow references up to a depth, follows none: it returns every reference as it is, whatever it refers to and
whatever the depth, and the object named by an IndirectObject after one step, if the depth is not 0. -/
theorem C149_deep_counterexample (fuel counter : Nat) (n g : Nat) (s : σ) :
    deepByRef loc fuel counter (.val (.atom (.ref n g))) s = (.ok (.atom (.ref n g)), s) := by
  unfold deepByRef
  rfl

/-- C149: what deep_obj_by_ref does with an IndirectObject. -/
theorem C149_deep_partial {store : Store} (hd : Delivers loc I store) (counter n g : Nat) (o w : Obj) (hs : store n g = some o) (v : Val) (F : Nat)
    (hv : ∀ fuel, F ≤ fuel → Gives I (factory loc fuel o) v) :
    (∀ fuel, F ≤ fuel → Gives I (deepByRef loc fuel (counter + 1) (.indirect n g w)) v) ∧
    ∀ fuel s, (deepByRef loc fuel 0 (.indirect n g w) s).1 = .error .valueError := by
  refine ⟨fun fuel hf => ?_, fun fuel s => rfl⟩
  have hl : Gives I (loc n g) o := fun s hI => hd n g o s hI hs
  unfold deepByRef objByRef
  refine gives_bind (gives_bind hl (hv fuel hf)) ?_
  unfold deepByRef
  exact gives_pure _

/-! ### Files -/

/-- C149, for written files: any revisions, opened; whatever was asked for before, an entry of any dictionary which leads to its object over `k + 1` other
references reads as the first of these. -/
theorem C149_files_partial (secure : Opened → Obj → Res Opened) (clamps : Bool) (older : List Draft) (last : Draft) (hok : ∀ d ∈ older ++ [last], d.Ok)
    (hsmall : (writeFile (older ++ [last])).length < 10 ^ 10) (hb : clamps = true ∨ 1024 ≤ (writeFile (older ++ [last])).length)
    (henc : NoEntry last.trailer b!"Encrypt") (a b : Nat) (catalog : List (Bytes × Obj)) (k : Option Bytes)
    (hroot : dictGet last.trailer b!"Root" = some (.ref a b)) (hcat : contentOf (older ++ [last]) a b = some (.dict catalog)) (hcls : DictKind catalog k) :
    ∃ F, ∀ fuel, F ≤ fuel → ∃ doc, openDocument filtered secure clamps fuel (writeFile (older ++ [last])) = .ok (doc, .dict k catalog) ∧
      ∀ (c : Option Bytes) (es : List (Bytes × Obj)) (key : Bytes) (n g i : Nat) (o : Obj), dictGet es key = some (.ref n g) →
        Leads (contentOf (older ++ [last])) n g (i + 2) o → ∃ n' g', contentOf (older ++ [last]) n g = some (.ref n' g') ∧ Leads (contentOf (older ++ [last])) n' g' (i + 1) o ∧
        ∀ history : List (Nat × Nat), (∀ k ∈ history, contentOf (older ++ [last]) k.1 k.2 ≠ none) →
          (attr (locate doc.env fuel) fuel (.dict c es) key (asked doc.env fuel history doc.st)).1 = .ok (.atom (.ref n' g')) := by
  obtain ⟨dict, F, hF⟩ := written_serves (filtered := filtered) secure clamps older last hok hsmall hb henc a b catalog k hroot hcat hcls
  refine ⟨F + 2, fun fuel hf => ?_⟩
  obtain ⟨doc, e, _, _, I, hI, hd⟩ := hF fuel (by omega)
  refine ⟨doc, e, fun c es key n g i o he hl => ?_⟩
  obtain ⟨n', g', h0, h1, h2⟩ := C149_longer_partial (hd fuel (by omega)) c es key n g i o he hl
  exact ⟨n', g', h0, h1, fun history hh => (h2 fuel (by omega) _ (asked_keeps (hd fuel (by omega)) history _ hI hh)).1⟩

/-- Objects 5, 6 and 7 are references, one to the other; 8 is a string. -/
def chained : Store
  | 5, 0 => some (.ref 6 0)
  | 6, 0 => some (.ref 7 0)
  | 7, 0 => some (.ref 8 0)
  | 8, 0 => some (.str b!"en")
  | 9, 0 => some (.arr [.int 1, .ref 8 0, .ref 7 0])
  | _, _ => none

theorem chained_leads : Leads chained 5 0 4 (.str b!"en") :=
  .step 5 0 6 0 3 _ rfl (.step 6 0 7 0 2 _ rfl (.step 7 0 8 0 1 _ rfl (.here 8 0 _ rfl (by simp))))

/-- The hypotheses of C149_longer_partial are met. -/
example : ∃ n' g', chained 5 0 = some (.ref n' g') ∧ Leads chained n' g' 3 (.str b!"en") ∧
    ∀ fuel, 2 ≤ fuel → Gives (fun _ => True) (attr (sampleLoc chained) fuel (.dict none [(b!"Lang", .ref 5 0)]) b!"Lang") (.atom (.ref n' g')) :=
  C149_longer_partial (sample_delivers chained) none _ _ 5 0 2 _ rfl chained_leads

/-- The hypotheses of C149_array_partial are met. -/
example : ∀ fuel, 5 ≤ fuel → Gives (fun _ => True) (attr (sampleLoc chained) fuel (.dict none [(b!"D", .ref 9 0)]) b!"D")
    (.arr [.atom (.int 1), .atom (.str b!"en"), .atom (.str b!"en")]) :=
  C149_array_partial (sample_delivers chained) none _ _ 9 0 _ [.int 1, .str b!"en", .str b!"en"] rfl rfl
    (.cons _ _ _ _ (.self _ trivial) (.cons _ _ _ _ (.ref 8 0 1 _ (.here 8 0 _ rfl (by simp)) (by omega) trivial)
      (.cons _ _ _ _ (.ref 7 0 2 _ (.step 7 0 8 0 1 _ rfl (.here 8 0 _ rfl (by simp))) (by omega) trivial) .nil)))

/-- C149 is false: the language is the string `en` over one other reference, and reads as a reference. -/
theorem C149_counterexample : Leads chained 7 0 2 (.str b!"en") ∧
    (attr (sampleLoc chained) 10 (.dict none [(b!"Lang", .ref 7 0)]) b!"Lang" ()).1 = .ok (.atom (.ref 8 0)) :=
  ⟨.step 7 0 8 0 1 _ rfl (.here 8 0 _ rfl (by simp)), rfl⟩

/-- C149 is false for elements: those of an array written in place are followed once, those of an array reached by a reference twice. -/
theorem C149_elements_counterexample :
    (attr (sampleLoc chained) 10 (.dict none [(b!"D", .arr [.int 1, .ref 8 0, .ref 7 0])]) b!"D" ()).1 = .ok (.arr [.atom (.int 1), .atom (.str b!"en"), .atom (.ref 8 0)]) ∧
    (attr (sampleLoc chained) 10 (.dict none [(b!"D", .ref 9 0)]) b!"D" ()).1 = .ok (.arr [.atom (.int 1), .atom (.str b!"en"), .atom (.str b!"en")]) :=
  ⟨rfl, rfl⟩

/-- A file with such a chain. -/
def chainedDraft : Draft where
  items := [⟨1, 0, .dict [(b!"Type", .name b!"Catalog"), (b!"Lang", .ref 2 0)]⟩, ⟨2, 0, .ref 3 0⟩, ⟨3, 0, .str b!"en"⟩]
  trailer := [(b!"Root", .ref 1 0)]

theorem chained_ok : chainedDraft.Ok := by
  refine ⟨by decide, by simp [chainedDraft, WritableValue, Writable, WritableEnts], ?_, by decide, by decide, by decide,
    by simp [chainedDraft, Writable, WritableEnts], by decide⟩
  intro i hi e data h v hv
  simp [chainedDraft] at hi
  rcases hi with rfl | rfl | rfl <;> simp at h

/-- The hypotheses of C149_files_partial are met: the Lang of this file reads as a reference. -/
example (secure : Opened → Obj → Res Opened) : ∃ F, ∀ fuel, F ≤ fuel → ∃ doc root, openDocument plain secure true fuel (writeFile [chainedDraft]) = .ok (doc, root) ∧
    (attr (locate doc.env fuel) fuel root b!"Lang" doc.st).1 = .ok (.atom (.ref 3 0)) := by
  obtain ⟨F, hF⟩ := C149_files_partial (filtered := plain) secure true [] chainedDraft
    (by intro d hd; rw [List.nil_append, List.mem_singleton] at hd; subst hd; exact chained_ok) (by decide +kernel) (Or.inl rfl) (Or.inl rfl) 1 0 _ (some b!"Catalog") rfl rfl
    (.typed _ rfl (by decide))
  refine ⟨F, fun fuel hf => ?_⟩
  obtain ⟨doc, e, h⟩ := hF fuel hf
  refine ⟨doc, _, e, ?_⟩
  obtain ⟨n', g', h0, _, h2⟩ := h (some b!"Catalog") [(b!"Type", .name b!"Catalog"), (b!"Lang", .ref 2 0)] b!"Lang" 2 0 0 (.str b!"en") rfl
    (.step 2 0 3 0 1 _ rfl (.here 3 0 _ rfl (by simp)))
  cases h0
  exact h2 [] (fun k hk => by cases hk)

end PdfReader
