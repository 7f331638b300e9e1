/-
  Lemmas about Model/Objects.lean.
-/
import Verif.Spec.Objects
import Verif.Lemmas.Basic

namespace PdfReader

open Spec

variable {σ : Type} {I : σ → Prop}

theorem gives_pure {α : Type} (v : α) : Gives I (DM.pure (.ok v)) v := fun _ h => ⟨rfl, h⟩

theorem gives_bind {α β : Type} {m : DM σ α} {a : α} {f : α → DM σ β} {b : β} (h1 : Gives I m a) (h2 : Gives I (f a) b) : Gives I (m.bind f) b := by
  intro s hs
  obtain ⟨e1, i1⟩ := h1 s hs
  have : m.bind f s = f a (m s).2 := by
    unfold DM.bind
    generalize m s = r at e1
    obtain ⟨r1, r2⟩ := r
    cases e1
    rfl
  rw [this]
  exact h2 _ i1

theorem gives_mapM_nil {α β : Type} (f : α → DM σ β) : Gives I (DM.mapM f []) [] := gives_pure _

theorem gives_mapM_cons {α β : Type} {f : α → DM σ β} {x : α} {y : β} {xs : List α} {ys : List β} (h1 : Gives I (f x) y)
    (h2 : Gives I (DM.mapM f xs) ys) : Gives I (DM.mapM f (x :: xs)) (y :: ys) := by
  unfold DM.mapM
  exact gives_bind h1 (gives_bind h2 (gives_pure _))

/-- Eventually, as the bound on the depth grows. -/
def Ev (P : Nat → Prop) : Prop := ∃ F, ∀ fuel, F ≤ fuel → P fuel

theorem Ev.and {P Q : Nat → Prop} (h1 : Ev P) (h2 : Ev Q) : Ev fun f => P f ∧ Q f := by
  obtain ⟨F, h1⟩ := h1
  obtain ⟨G, h2⟩ := h2
  exact ⟨max F G, fun f h => ⟨h1 f (by omega), h2 f (by omega)⟩⟩

theorem Ev.mono {P Q : Nat → Prop} (h1 : Ev P) (h : ∀ f, P f → Q f) : Ev Q := by
  obtain ⟨F, h1⟩ := h1
  exact ⟨F, fun f hf => h f (h1 f hf)⟩

theorem Ev.succ {P : Nat → Prop} (h : Ev fun f => P (f + 1)) : Ev P := by
  obtain ⟨F, h⟩ := h
  refine ⟨F + 1, fun f hf => ?_⟩
  cases f with
  | zero => omega
  | succ f => exact h f (by omega)

theorem Ev.all {P : Nat → Prop} (h : ∀ f, P f) : Ev P := ⟨0, fun f _ => h f⟩

theorem dictKind_class {es : List (Bytes × Obj)} {c : Option Bytes} (h : DictKind es c) : dictClass es = .ok c := by
  unfold dictClass
  cases h with
  | typed t h1 h2 => rw [h1]; dsimp only; rw [if_pos h2]
  | other t h1 h2 => rw [h1]; dsimp only; rw [if_neg h2]
  | untyped h1 => rw [h1]

theorem streamKind_class {d : List (Bytes × Obj)} {c : Bytes} (h : StreamKind d c) : streamClass d = .ok c := by
  unfold streamClass
  cases h with
  | xobject _ h1 h2 h3 =>
    rw [h1, h2]
    simp only [List.mem_cons, List.not_mem_nil, or_false] at h3
    rcases h3 with rfl | rfl | rfl <;> rfl
  | otherXObject u h1 h2 h3 =>
    simp only [List.mem_cons, List.not_mem_nil, or_false, not_or] at h3
    rw [h1, h2]
    simp only [Option.getD_some, if_true]
    rw [if_neg h3.1, if_neg h3.2.1, if_neg h3.2.2]
  | typed _ h1 h2 =>
    rw [h1]
    simp only [List.mem_cons, List.not_mem_nil, or_false] at h2
    rcases h2 with rfl | rfl | rfl <;> rfl
  | other t h1 h2 =>
    simp only [List.mem_cons, List.not_mem_nil, or_false, not_or] at h2
    rw [h1]
    simp only [Option.getD_some]
    rw [if_neg h2.1, if_neg h2.2.1, if_neg h2.2.2.1, if_neg h2.2.2.2]
  | plain h1 => rw [h1]; rfl

/-- Values without unresolved references. -/
inductive NoRefs : Val → Prop
  | atom (o : Obj) : Atomic o → NoRefs (.atom o)
  | dict (c : Option Bytes) (es : List (Bytes × Obj)) : NoRefs (.dict c es)
  | stream (c : Bytes) (d : List (Bytes × Obj)) (data : Bytes) : NoRefs (.stream c d data)
  | nil : NoRefs (.arr [])
  | cons (v : Val) (vs : List Val) : NoRefs v → NoRefs (.arr vs) → NoRefs (.arr (v :: vs))

theorem reads_noRefs {store : Store} {o : Obj} {v : Val} (h : Reads store o v) : NoRefs v := by
  induction h with
  | atom o h => exact .atom o h
  | dict => exact .dict _ _
  | stream => exact .stream _ _ _
  | nil => exact .nil
  | cons _ _ _ _ _ _ h1 h2 => exact .cons _ _ h1 h2
  | ref _ _ _ _ _ _ _ h => exact h

variable {loc : Locator σ}

theorem factory_atomic {o : Obj} (h : Atomic o) (fuel : Nat) : Gives I (factory loc (fuel + 1) o) (.atom o) := by
  unfold factory
  cases o <;> first | exact absurd h id | exact gives_pure _

theorem build_atomic {o : Obj} (h : Atomic o) (fuel : Nat) (visited : List Key) : Gives I (build loc (fuel + 2) visited o) (.atom o) := by
  unfold build
  cases o <;> first | exact absurd h id | exact factory_atomic h fuel

theorem rebuild_same {v : Val} (h : NoRefs v) : Ev (fun f => ∀ visited, Gives I (rebuild loc f visited v) v) ∧
    ∀ vs, v = .arr vs → Ev (fun f => ∀ visited, Gives I (DM.mapM (rebuild loc f visited) vs) vs) := by
  induction h with
  | atom o h =>
    refine ⟨⟨3, fun f hf visited => ?_⟩, fun vs e => by cases e⟩
    obtain ⟨k, rfl⟩ : ∃ k, f = k + 3 := ⟨f - 3, by omega⟩
    unfold rebuild
    exact build_atomic h k visited
  | dict c es =>
    refine ⟨.succ (.all fun f visited => ?_), fun vs e => by cases e⟩
    unfold rebuild
    exact gives_pure _
  | stream c d data =>
    refine ⟨.succ (.all fun f visited => ?_), fun vs e => by cases e⟩
    unfold rebuild
    exact gives_pure _
  | nil =>
    have h : Ev (fun f => ∀ visited, Gives I (DM.mapM (rebuild loc f visited) []) []) := .all fun f visited => gives_mapM_nil _
    refine ⟨.succ (h.mono fun f hf visited => ?_), fun vs e => by cases e; exact h⟩
    unfold rebuild
    exact gives_bind (hf visited) (gives_pure _)
  | cons v vs h1 h2 ih1 ih2 =>
    have h : Ev (fun f => ∀ visited, Gives I (DM.mapM (rebuild loc f visited) (v :: vs)) (v :: vs)) :=
      (ih1.1.and (ih2.2 vs rfl)).mono fun f hf visited => gives_mapM_cons (hf.1 visited) (hf.2 visited)
    refine ⟨.succ (h.mono fun f hf visited => ?_), fun vs e => by cases e; exact h⟩
    unfold rebuild
    exact gives_bind (hf visited) (gives_pure _)

theorem build_arr {xs : List Obj} {vs : List Val} (h : Ev (fun f => Gives I (DM.mapM (build loc f []) xs) vs)) :
    Ev (fun f => Gives I (build loc f [] (.arr xs)) (.arr vs)) := by
  refine .succ (h.mono fun f hf => ?_)
  unfold build
  exact gives_bind hf (gives_pure _)

theorem factory_arr {xs : List Obj} {vs : List Val} (h : Ev (fun f => Gives I (DM.mapM (build loc f []) xs) vs)) :
    Ev (fun f => Gives I (factory loc f (.arr xs)) (.arr vs)) := by
  refine .succ (h.mono fun f hf => ?_)
  unfold factory
  exact gives_bind hf (gives_pure _)

theorem factory_of_build {o : Obj} {v : Val} {f : Nat} (ho : ∀ n g, o ≠ .ref n g) (ha : ∀ xs, o ≠ .arr xs)
    (h : Gives I (build loc (f + 1) [] o) v) : Gives I (factory loc f o) v := by
  unfold build at h
  cases o <;> first | exact h | exact absurd rfl (ho _ _) | exact absurd rfl (ha _)

theorem reads_build {store : Store} (hd : Delivers loc I store) {o : Obj} {v : Val} (h : Reads store o v) :
    Ev (fun f => Gives I (build loc f [] o) v) ∧
    ∀ xs vs, o = .arr xs → v = .arr vs → Ev (fun f => Gives I (DM.mapM (build loc f []) xs) vs) := by
  induction h with
  | atom o h =>
    refine ⟨.succ (.succ (.all fun f => build_atomic h f [])), fun xs vs e1 e2 => by cases e2⟩
  | dict es c h =>
    refine ⟨.succ (.succ (.all fun f => ?_)), fun xs vs e1 e2 => by cases e2⟩
    unfold build factory
    dsimp only
    rw [dictKind_class h]
    exact gives_pure _
  | stream d data c h =>
    refine ⟨.succ (.succ (.all fun f => ?_)), fun xs vs e1 e2 => by cases e2⟩
    unfold build factory
    dsimp only
    rw [streamKind_class h]
    exact gives_pure _
  | nil =>
    have h : Ev (fun f => Gives I (DM.mapM (build loc f []) []) []) := .all fun f => gives_mapM_nil _
    exact ⟨build_arr h, fun xs vs e1 e2 => by cases e1; cases e2; exact h⟩
  | cons x v xs vs h1 h2 ih1 ih2 =>
    have h : Ev (fun f => Gives I (DM.mapM (build loc f []) (x :: xs)) (v :: vs)) :=
      (ih1.1.and (ih2.2 xs vs rfl rfl)).mono fun f hf => gives_mapM_cons hf.1 hf.2
    exact ⟨build_arr h, fun xs vs e1 e2 => by cases e1; cases e2; exact h⟩
  | ref n g o v hs ho h ih =>
    refine ⟨.succ ?_, fun xs vs e1 e2 => by cases e1⟩
    have hl : Gives I (loc n g) o := fun s hi => hd n g o s hi hs
    have hv := reads_noRefs h
    have key : Ev (fun f => Gives I (factory loc f o) v ∧ ∀ vs, v = .arr vs → Gives I (DM.mapM (rebuild loc f [(n, g)]) vs) vs) := by
      refine Ev.and ?_ ?_
      · by_cases ha : ∃ xs, o = .arr xs
        · obtain ⟨xs, rfl⟩ := ha
          have : ∃ vs, v = .arr vs := by
            cases h with
            | atom _ h => exact absurd h id
            | nil => exact ⟨_, rfl⟩
            | cons => exact ⟨_, rfl⟩
          obtain ⟨vs, rfl⟩ := this
          exact factory_arr (ih.2 xs vs rfl rfl)
        · obtain ⟨F, h⟩ := ih.1
          exact ⟨F, fun f hf => factory_of_build ho (fun xs e => ha ⟨xs, e⟩) (h (f + 1) (by omega))⟩
      · by_cases ha : ∃ vs, v = .arr vs
        · obtain ⟨vs, rfl⟩ := ha
          exact ((rebuild_same hv).2 vs rfl).mono fun f hf ws e => by cases e; exact hf _
        · exact .all fun f vs e => absurd ⟨vs, e⟩ ha
    refine key.mono fun f hf => ?_
    unfold build
    dsimp only
    rw [if_neg (by simp)]
    refine gives_bind hl (gives_bind hf.1 ?_)
    cases v with
    | arr vs => exact gives_bind (hf.2 vs rfl) (gives_pure _)
    | atom o => exact gives_pure _
    | dict c es => exact gives_pure _
    | stream c d data => exact gives_pure _

theorem entry_reads {store : Store} (hd : Delivers loc I store) {es : List (Bytes × Obj)} {k : Bytes} {v : Val} (h : EntryIs store es k v) :
    Ev (fun f => Gives I (entry loc f es k) v) := by
  obtain ⟨o, h1, h2⟩ := h
  refine (reads_build hd h2).1.mono fun f hf => ?_
  unfold entry
  rw [h1]
  intro s hs
  obtain ⟨e, i⟩ := hf s hs
  dsimp only
  generalize build loc f [] o s = r at e i
  obtain ⟨r1, r2⟩ := r
  cases e
  exact ⟨rfl, i⟩

theorem entry_none {es : List (Bytes × Obj)} {k : Bytes} (h : NoEntry es k) : Ev (fun f => Gives I (entry loc f es k) (.atom .null)) := by
  rcases h with h | h
  · refine .all fun f => ?_
    unfold entry
    rw [h]
    exact gives_pure _
  · refine ⟨2, fun f hf => ?_⟩
    obtain ⟨k, rfl⟩ : ∃ k, f = k + 2 := ⟨f - 2, by omega⟩
    unfold entry
    rw [h]
    intro s hs
    exact ⟨rfl, hs⟩

end PdfReader
