/-
  Lemmas about the resolution of references (Verif/Model/Locate.lean).
-/
import Verif.Model.Locate
import Verif.Lemmas.Chain
import Verif.Spec.Locate

namespace PdfReader

/-- Nothing is forgotten, and the lookup stack is as before. -/
structure Mono (s s' : St) : Prop where
  stack : s'.stack = s.stack
  reg : ∀ k v, regGet s.reg k = some v → regGet s'.reg k = some v

theorem Mono.refl (s : St) : Mono s s := ⟨rfl, fun _ _ h => h⟩

theorem Mono.trans {a b c : St} (h : Mono a b) (h' : Mono b c) : Mono a c :=
  ⟨h'.stack.trans h.stack, fun k v hk => h'.reg k v (h.reg k v hk)⟩

theorem Mono.put {s : St} {k : Key} {v : Obj} (h : regGet s.reg k = none) : Mono s (s.put k v) := by
  refine ⟨rfl, fun k' v' h' => ?_⟩
  unfold St.put
  simp only [regGet]
  split
  · rename_i e; subst e; rw [h] at h'; cases h'
  · exact h'

theorem Mono.snd {α : Type} {s s1 : St} {p : Res α × St} {x : Res α} (h : Mono s p.2) (e : p = (x, s1)) : Mono s s1 := by
  rw [e] at h; exact h

theorem mono_all (env : Env) : ∀ fuel : Nat,
    (∀ num gen val s, Mono s (register env fuel num gen val s).2) ∧
    (∀ data first ms s, Mono s (registerAll env fuel data first ms s).2) ∧
    (∀ known off s, Mono s (parseAt env fuel known off s).2) ∧
    (∀ off s, Mono s (objectAt env fuel off s).2) ∧
    (∀ off s, Mono s (bodyElement env fuel off s).2) ∧
    (∀ ts deepest last s, Mono s (bruteLoop env fuel ts deepest last s).2) ∧
    (∀ num gen s, Mono s (bruteForce env fuel num gen s).2) ∧
    (∀ num gen xs s, Mono s (byXref env fuel num gen xs s).2) ∧
    (∀ num gen s, Mono s (locate env fuel num gen s).2) := by
  intro fuel
  induction fuel with
  | zero =>
    refine ⟨?_, ?_, ?_, ?_, ?_, ?_, ?_, ?_, ?_⟩ <;> intros <;>
      simp only [register, registerAll, parseAt, objectAt, bodyElement, bruteLoop, bruteForce, byXref, locate] <;> exact .refl _
  | succ fuel ih =>
    obtain ⟨i1, i2, i3, i4, i5, i6, i7, i8, i9⟩ := ih
    refine ⟨?_, ?_, ?_, ?_, ?_, ?_, ?_, ?_, ?_⟩
    · intro num gen val s
      rw [register]
      split
      · exact .refl _
      · rename_i h
        have hp := Mono.put (v := val) h
        dsimp only
        split
        · split
          · split
            · exact hp
            · exact hp.trans (i2 _ _ _ _)
          · exact hp
        · exact hp
    · intro data first ms s
      cases ms with
      | nil => rw [registerAll]; exact .refl _
      | cons m ms =>
        rw [registerAll]
        split
        · exact .refl _
        · split
          · rename_i h; exact (i1 _ _ _ _).snd h
          · rename_i h; exact ((i1 _ _ _ _).snd h).trans (i2 _ _ _ _)
    · intro known off s
      rw [parseAt]
      split
      · split
        · rename_i h; exact (i9 _ _ _).snd h
        · rename_i h; exact ((i9 _ _ _).snd h).trans (i3 _ _ _)
      · exact .refl _
      · exact .refl _
    · intro off s
      rw [objectAt]
      split
      · rename_i h; exact (i3 _ _ _).snd h
      · rename_i h
        have h3 := (i3 _ _ _).snd h
        split
        · exact h3
        · split
          · rename_i h; exact h3.trans ((i1 _ _ _ _).snd h)
          · rename_i h; exact h3.trans ((i1 _ _ _ _).snd h)
    · intro off s
      rw [bodyElement]
      split
      · exact .refl _
      · split
        · exact i4 _ _
        · split
          · split <;> exact .refl _
          · split <;> exact .refl _
    · intro ts deepest last s
      cases ts with
      | nil => rw [bruteLoop]; exact .refl _
      | cons t ts =>
        rw [bruteLoop]
        split
        · exact .refl _
        · dsimp only
          split
          · rename_i h
            have h5 := (i5 _ _).snd h
            split
            · exact h5
            · exact h5.trans (i6 _ _ _ _)
          · rename_i h; exact (i5 _ _).snd h
          · rename_i h; exact ((i5 _ _).snd h).trans (i6 _ _ _ _)
    · intro num gen s
      rw [bruteForce]
      split
      · exact .refl _
      · split
        · exact .refl _
        · have h6 := i6 [s.bf] none s.bf { s with stack := (num, gen) :: s.stack }
          split
          · rename_i h
            have h6 := h6.snd h
            split
            · exact ⟨rfl, h6.reg⟩
            · rename_i hn
              exact ⟨rfl, fun k v hk => (Mono.put hn).reg k v (h6.reg k v hk)⟩
          · rename_i h
            exact ⟨rfl, (h6.snd h).reg⟩
          · rename_i p s1 h
            have a : Mono s { s1 with bf := p, stack := s.stack } := ⟨rfl, (h6.snd h).reg⟩
            exact a.trans (i7 num gen _)
    · intro num gen xs s
      cases xs with
      | nil => rw [byXref]; exact .refl _
      | cons x xs =>
        rw [byXref]
        split
        · exact i8 _ _ _ _
        · split
          · split
            · rename_i h
              have h4 := (i4 _ _).snd h
              split
              · exact h4
              · exact h4.trans (i8 _ _ _ _)
            · rename_i h; exact (i4 _ _).snd h
            · rename_i h
              have h4 := (i4 _ _).snd h
              split
              · exact h4
              · exact h4.trans (i8 _ _ _ _)
          · exact i8 _ _ _ _
    · intro num gen s
      rw [locate]
      split
      · split
        · exact .refl _
        · split
          · rename_i h; exact (i8 _ _ _ _).snd h
          · rename_i h; exact ((i8 _ _ _ _).snd h).trans (i7 _ _ _)
      · split
        · rename_i h; exact (i8 _ _ _ _).snd h
        · rename_i h; exact ((i8 _ _ _ _).snd h).trans (i7 _ _ _)

theorem locate_mono (env : Env) (fuel num gen : Nat) (s : St) : Mono s (locate env fuel num gen s).2 :=
  (mono_all env fuel).2.2.2.2.2.2.2.2 num gen s

theorem objectAt_mono (env : Env) (fuel off : Nat) (s : St) : Mono s (objectAt env fuel off s).2 :=
  (mono_all env fuel).2.2.2.1 off s

theorem regGet_put (s : St) (k : Key) (v : Obj) : regGet (s.put k v).reg k = some v := by
  simp [St.put, regGet]

theorem bruteForce_ok (env : Env) : ∀ (fuel num gen : Nat) (s s' : St) (v : Obj), bruteForce env fuel num gen s = (.ok v, s') →
    regGet s'.reg (num, gen) = some v := by
  intro fuel
  induction fuel with
  | zero => intro num gen s s' v h; rw [bruteForce] at h; cases h
  | succ fuel ih =>
    intro num gen s s' v h
    rw [bruteForce] at h
    split at h
    · rename_i h1; cases h; exact h1
    · split at h
      · cases h
      · split at h
        · split at h
          · rename_i h1; cases h; exact h1
          · cases h; exact regGet_put _ _ _
        · cases h
        · exact ih _ _ _ _ _ h

/-- A successful lookup delivers what is registered afterwards. -/
theorem locate_ok {env : Env} {fuel num gen : Nat} {s s' : St} {v : Obj} (h : locate env fuel num gen s = (.ok v, s')) :
    regGet s'.reg (num, gen) = some v := by
  cases fuel with
  | zero => rw [locate] at h; cases h
  | succ fuel =>
    rw [locate] at h
    split at h
    · rename_i h1
      split at h
      · cases h; exact h1
      · split at h
        · cases h
        · exact bruteForce_ok _ _ _ _ _ _ _ h
    · split at h
      · cases h
      · exact bruteForce_ok _ _ _ _ _ _ _ h

open Spec

/-- Everything registered has a source or is null. -/
structure Inv (env : Env) (start : Nat) (reg0 : List (Key × Obj)) (s : St) : Prop where
  reg : ∀ k v, regGet s.reg k = some v → v = .null ∨ Source env start reg0 k v
  bf : ScanPos env start reg0 s.bf

/-- The invariant, given the outcome of a computation. -/
def Keeps {α : Type} (env : Env) (start : Nat) (reg0 : List (Key × Obj)) (Q : α → Prop) (p : Res α × St) : Prop :=
  Inv env start reg0 p.2 ∧ ∀ a, p.1 = .ok a → Q a

theorem Keeps.err {α : Type} {env start reg0} {Q : α → Prop} {e : Exc} {s : St} (h : Inv env start reg0 s) :
    Keeps env start reg0 Q (.error e, s) := ⟨h, fun _ h => by cases h⟩

theorem Keeps.ret {α : Type} {env start reg0} {Q : α → Prop} {a : α} {s : St} (h : Inv env start reg0 s) (hq : Q a) :
    Keeps env start reg0 Q (.ok a, s) := ⟨h, fun _ h => by cases h; exact hq⟩

theorem Keeps.inv {α : Type} {env start reg0} {Q : α → Prop} {p : Res α × St} {x : Res α} {s : St} (h : Keeps env start reg0 Q p)
    (e : p = (x, s)) : Inv env start reg0 s := by
  rw [e] at h; exact h.1

theorem Keeps.val {α : Type} {env start reg0} {Q : α → Prop} {p : Res α × St} {a : α} {s : St} (h : Keeps env start reg0 Q p)
    (e : p = (.ok a, s)) : Q a := by
  rw [e] at h; exact h.2 _ rfl

theorem Inv.put {env start reg0} {s : St} (h : Inv env start reg0 s) {k : Key} {v : Obj}
    (hv : v = .null ∨ Source env start reg0 k v) : Inv env start reg0 (s.put k v) := by
  refine ⟨fun k' v' h' => ?_, h.bf⟩
  unfold St.put at h'
  simp only [regGet] at h'
  split at h'
  · rename_i e; subst e; cases h'; exact hv
  · exact h.reg _ _ h'

/-- Known answers to an indirect Length have a source. -/
def Lens (env : Env) (start : Nat) (reg0 : List (Key × Obj)) (lens : List (Key × Obj)) : Prop :=
  ∀ k x, regGet lens k = some x → x ≠ .null → Source env start reg0 k x

theorem inv_all (env : Env) (start : Nat) (reg0 : List (Key × Obj)) : ∀ fuel : Nat,
    (∀ num gen val s, Inv env start reg0 s → (val = .null ∨ Source env start reg0 (num, gen) val) →
      Keeps env start reg0 (fun _ => True) (register env fuel num gen val s)) ∧
    (∀ data first ms s, Inv env start reg0 s →
      (∀ n off v, (n, off) ∈ ms → member data first off = .ok v → Source env start reg0 (n, 0) v) →
      Keeps env start reg0 (fun _ => True) (registerAll env fuel data first ms s)) ∧
    (∀ known off s, Inv env start reg0 s → Lens env start reg0 known →
      Keeps env start reg0 (fun x => ∃ lens, Lens env start reg0 lens ∧ indirectObject (askCfg lens) (env.file.drop off) = .ok x)
        (parseAt env fuel known off s)) ∧
    (∀ off s, Inv env start reg0 s → ObjPos env start reg0 off →
      Keeps env start reg0 (ScanPos env start reg0) (objectAt env fuel off s)) ∧
    (∀ off s, Inv env start reg0 s → ObjPos env start reg0 off →
      Keeps env start reg0 (ScanPos env start reg0) (bodyElement env fuel off s)) ∧
    (∀ ts deepest last s, Inv env start reg0 s → (∀ t ∈ ts, ScanPos env start reg0 t) →
      (∀ d, deepest = some d → ScanPos env start reg0 d) → ScanPos env start reg0 last →
      Keeps env start reg0 (ScanPos env start reg0) (bruteLoop env fuel ts deepest last s)) ∧
    (∀ num gen s, Inv env start reg0 s → Keeps env start reg0 (fun _ => True) (bruteForce env fuel num gen s)) ∧
    (∀ num gen xs s, Inv env start reg0 s → (∀ x ∈ xs, x ∈ env.xrefs) →
      Keeps env start reg0 (fun _ => True) (byXref env fuel num gen xs s)) ∧
    (∀ num gen s, Inv env start reg0 s → Keeps env start reg0 (fun _ => True) (locate env fuel num gen s)) := by
  intro fuel
  induction fuel with
  | zero =>
    refine ⟨?_, ?_, ?_, ?_, ?_, ?_, ?_, ?_, ?_⟩ <;> intros <;>
      simp only [register, registerAll, parseAt, objectAt, bodyElement, bruteLoop, bruteForce, byXref, locate] <;>
      exact .err (by assumption)
  | succ fuel ih =>
    obtain ⟨i1, i2, i3, i4, i5, i6, i7, i8, i9⟩ := ih
    refine ⟨?_, ?_, ?_, ?_, ?_, ?_, ?_, ?_, ?_⟩
    · intro num gen val s hs hv
      rw [register]
      split
      · exact .ret hs trivial
      · have hp := hs.put hv
        dsimp only
        split
        · rename_i d raw
          have hv : Source env start reg0 (num, gen) (.stream d raw) := by
            rcases hv with h | h
            · cases h
            · exact h
          split
          · rename_i ho
            split
            · exact .err hp
            · rename_i data first ms hd
              exact i2 _ _ _ _ hp (fun n off v hm hmem => .compressed _ _ _ _ _ _ _ _ _ hv ho hd hm hmem)
          · exact .ret hp trivial
        · exact .ret hp trivial
    · intro data first ms s hs hm
      cases ms with
      | nil => rw [registerAll]; exact .ret hs trivial
      | cons m ms =>
        obtain ⟨num, off⟩ := m
        rw [registerAll]
        split
        · exact .err hs
        · rename_i v hv
          have h1 := i1 num 0 v s hs (Or.inr (hm _ _ _ List.mem_cons_self hv))
          split
          · rename_i h; exact .err (h1.inv h)
          · rename_i h
            exact i2 _ _ _ _ (h1.inv h) (fun n off v hn => hm n off v (List.mem_cons_of_mem _ hn))
    · intro known off s hs hk
      rw [parseAt]
      split
      · rename_i n g _
        have h9 := i9 n g s hs
        split
        · rename_i h; exact .err (h9.inv h)
        · rename_i v s1 h
          refine i3 _ _ _ (h9.inv h) ?_
          intro k x hx hne
          simp only [regGet] at hx
          split at hx
          · rename_i e
            cases hx; subst e
            rcases (h9.inv h).reg _ _ (locate_ok h) with h | h
            · exact absurd h hne
            · exact h
          · exact hk _ _ hx hne
      · exact .err hs
      · rename_i x h; exact .ret hs ⟨known, hk, h⟩
    · intro off s hs ho
      rw [objectAt]
      have h3 := i3 [] off s hs (by intro k x h; cases h)
      split
      · rename_i h; exact .err (h3.inv h)
      · rename_i num gen v r s1 h
        obtain ⟨lens, hl, hp⟩ := h3.val h
        have h3 := h3.inv h
        split
        · exact .err h3
        · rename_i w hw
          have h1 := i1 num gen w s1 h3 (Or.inr (.body off num gen lens v w r ho hl hp hw))
          split
          · rename_i h; exact .err (h1.inv h)
          · rename_i h; exact .ret (h1.inv h) (.afterObject off lens _ r ho hl hp)
    · intro off s hs ho
      rw [bodyElement]
      split
      · exact .err hs
      · rename_i c r hd
        split
        · exact i4 _ _ hs ho
        · split
          · split
            · exact .err hs
            · rename_i n r1 h; exact .ret hs (.afterStartxref off n r1 ho (by rw [hd]; exact h))
          · split <;> exact .err hs
    · intro ts deepest last s hs ht hd hl
      cases ts with
      | nil =>
        rw [bruteLoop]
        refine .ret hs ?_
        cases deepest with
        | none => exact hl
        | some d => exact hd d rfl
      | cons t ts =>
        rw [bruteLoop]
        split
        · exact .err hs
        · rename_i r hr
          have h5 := i5 (env.file.length - r.length) s hs (.scanned t r (ht t List.mem_cons_self) hr)
          dsimp only
          split
          · rename_i h
            have h5 := h5.inv h
            split
            · exact .err h5
            · rename_i p hp
              have hp : ScanPos env start reg0 p := .afterEndobj _ _ hp
              refine i6 _ _ _ _ h5 ?_ (by intro d h; cases h; exact hp) hl
              intro u hu
              rcases List.mem_cons.mp hu with rfl | hu
              · exact hp
              · exact ht _ hu
          · rename_i h; exact .err (h5.inv h)
          · rename_i h
            exact i6 _ _ _ _ (h5.inv h) (fun u hu => ht _ (List.mem_cons_of_mem _ hu)) hd (h5.val h)
    · intro num gen s hs
      rw [bruteForce]
      split
      · exact .ret hs trivial
      · split
        · exact .err hs
        · have h6 := i6 [s.bf] none s.bf { s with stack := (num, gen) :: s.stack } ⟨hs.reg, hs.bf⟩
            (by intro t ht; rw [List.mem_singleton] at ht; subst ht; exact hs.bf) (by intro d h; cases h) hs.bf
          split
          · rename_i h
            have h6 := h6.inv h
            split
            · exact .ret ⟨h6.reg, h6.bf⟩ trivial
            · have := h6.put (k := (num, gen)) (v := .null) (Or.inl rfl)
              exact .ret ⟨this.reg, this.bf⟩ trivial
          · rename_i h
            have h6 := h6.inv h
            exact .err ⟨h6.reg, h6.bf⟩
          · rename_i p s1 h
            exact i7 _ _ _ ⟨(h6.inv h).reg, h6.val h⟩
    · intro num gen xs s hs hx
      cases xs with
      | nil => rw [byXref]; exact .ret hs trivial
      | cons x xs =>
        have hxs : ∀ y ∈ xs, y ∈ env.xrefs := fun y hy => hx y (List.mem_cons_of_mem _ hy)
        rw [byXref]
        split
        · exact i8 _ _ _ _ hs hxs
        · rename_i e he
          split
          · have h4 := i4 e.offset s hs (.listed x num e (hx x List.mem_cons_self) he)
            split
            · rename_i h
              have h4 := h4.inv h
              split
              · exact .ret h4 trivial
              · exact i8 _ _ _ _ h4 hxs
            · rename_i h; exact .err (h4.inv h)
            · rename_i h
              have h4 := h4.inv h
              split
              · exact .ret h4 trivial
              · exact i8 _ _ _ _ h4 hxs
          · exact i8 _ _ _ _ hs hxs
    · intro num gen s hs
      have h8 := i8 num gen env.xrefs s hs (fun _ h => h)
      rw [locate]
      split
      · split
        · exact .ret hs trivial
        · split
          · rename_i h; exact .err (h8.inv h)
          · rename_i h; exact i7 _ _ _ (h8.inv h)
      · split
        · rename_i h; exact .err (h8.inv h)
        · rename_i h; exact i7 _ _ _ (h8.inv h)

theorem locate_inv {env : Env} {start : Nat} {reg0 : List (Key × Obj)} {s : St} (h : Inv env start reg0 s) (fuel num gen : Nat) :
    Inv env start reg0 (locate env fuel num gen s).2 :=
  ((inv_all env start reg0 fuel).2.2.2.2.2.2.2.2 num gen s h).1


/-! ### Resolving again -/

/-- `s'` knows everything `s` knows. -/
def Knows (s s' : St) : Prop := ∀ k v, regGet s.reg k = some v → regGet s'.reg k = some v

theorem Knows.trans {a b c : St} (h : Knows a b) (h' : Knows b c) : Knows a c := fun k v hk => h' k v (h k v hk)

theorem bruteForce_noParser (env : Env) : ∀ (fuel num gen : Nat) (s : St), (bruteForce env fuel num gen s).1 ≠ .error .parser := by
  intro fuel
  induction fuel with
  | zero => intro num gen s h; rw [bruteForce] at h; cases h
  | succ fuel ih =>
    intro num gen s
    rw [bruteForce]
    split
    · intro h; cases h
    · split
      · intro h; cases h
      · split
        · split <;> (intro h; cases h)
        · rename_i e s1 hne _
          intro h
          cases h
          exact hne rfl
        · exact ih _ _ _

theorem byXref_noParser (env : Env) : ∀ (fuel num gen : Nat) (xs : List XRef) (s : St),
    (byXref env fuel num gen xs s).1 ≠ .error .parser := by
  intro fuel
  induction fuel with
  | zero => intro num gen xs s h; rw [byXref] at h; cases h
  | succ fuel ih =>
    intro num gen xs s
    cases xs with
    | nil => rw [byXref]; intro h; cases h
    | cons x xs =>
      rw [byXref]
      split
      · exact ih _ _ _ _
      · split
        · split
          · split
            · intro h; cases h
            · exact ih _ _ _ _
          · rename_i e s1 hne _
            intro h
            cases h
            exact hne rfl
          · split
            · intro h; cases h
            · exact ih _ _ _ _
        · exact ih _ _ _ _

/-- `locate_object` never raises ParserException. -/
theorem locate_noParser (env : Env) (fuel num gen : Nat) (s : St) : (locate env fuel num gen s).1 ≠ .error .parser := by
  cases fuel with
  | zero => rw [locate]; intro h; cases h
  | succ fuel =>
    rw [locate]
    have hx := byXref_noParser env fuel num gen env.xrefs s
    split
    · split
      · intro h; cases h
      · split
        · rename_i e s1 h; rw [h] at hx; intro h2; cases h2; exact hx rfl
        · exact bruteForce_noParser _ _ _ _ _
    · split
      · rename_i e s1 h; rw [h] at hx; intro h2; cases h2; exact hx rfl
      · exact bruteForce_noParser _ _ _ _ _

theorem register_known {env : Env} {fuel num gen : Nat} {val : Obj} {s : St} (h : (register env fuel num gen val s).1 ≠ .error .diverges ∨ fuel ≠ 0) :
    ∃ v, regGet (register env fuel num gen val s).2.reg (num, gen) = some v := by
  cases fuel with
  | zero => rw [register] at h; simp at h
  | succ fuel =>
    rw [register]
    split
    · rename_i v hv; exact ⟨v, hv⟩
    · have hk := regGet_put s (num, gen) val
      dsimp only
      split
      · split
        · split
          · exact ⟨_, hk⟩
          · exact ⟨_, ((mono_all env fuel).2.1 _ _ _ _).reg _ _ hk⟩
        · exact ⟨_, hk⟩
      · exact ⟨_, hk⟩

/-- Outcomes after which the search goes on. -/
def Soft {α : Type} (r : Res α) : Prop := r = .error .parser ∨ ∃ a, r = .ok a

/-- Doing the same again in a later state. -/
def Again {α : Type} (f : Nat → Res α × St) (s : St) (r : Res α) : Prop :=
  ∃ F s', Knows s s' ∧ ∀ fuel, F ≤ fuel → f fuel = (r, s')

theorem again_all (env : Env) : ∀ fuel : Nat,
    (∀ known off s r s1, parseAt env fuel known off s = (r, s1) → Soft r → ∀ s2, Knows s1 s2 →
      Again (fun f => parseAt env f known off s2) s2 r) ∧
    (∀ num gen s v s1, locate env fuel num gen s = (.ok v, s1) → ∀ s2, Knows s1 s2 →
      Again (fun f => locate env f num gen s2) s2 (.ok v)) := by
  intro fuel
  induction fuel using Nat.strongRecOn with
  | _ fuel ih =>
  cases fuel with
  | zero =>
    refine ⟨?_, ?_⟩
    · intro known off s r s1 h hr
      rw [parseAt] at h; cases h
      rcases hr with h | ⟨a, h⟩ <;> cases h
    · intro num gen s v s1 h; rw [locate] at h; cases h
  | succ fuel =>
    refine ⟨?_, ?_⟩
    · -- parsing
      intro known off s r s1 h hr s2 hk
      rw [parseAt] at h
      split at h
      · rename_i n g hn
        split at h
        · rename_i e sa hl
          cases h
          rcases hr with h | ⟨a, h⟩
          · cases h
            have := locate_noParser env fuel n g s
            rw [hl] at this; exact absurd rfl this
          · cases h
        · rename_i v sa hl
          have hm : Knows sa s1 := by
            have := (mono_all env fuel).2.2.1 (((n, g), v) :: known) off sa
            rw [h] at this; exact this.reg
          obtain ⟨F1, s3, k1, h1⟩ := (ih fuel (by omega)).2 n g s v sa hl s2 (hm.trans hk)
          obtain ⟨F2, s4, k2, h2⟩ := (ih fuel (by omega)).1 _ off sa r s1 h hr s3 (hk.trans k1)
          refine ⟨F1 + F2 + 1, s4, k1.trans k2, fun f hf => ?_⟩
          cases f with
          | zero => omega
          | succ f =>
            dsimp only at h1 h2 ⊢
            rw [parseAt, hn]
            dsimp only
            rw [h1 f (by omega)]
            dsimp only
            rw [h2 f (by omega)]
      · rename_i e hne he
        cases h
        refine ⟨1, s2, fun k v h => h, fun f hf => ?_⟩
        cases f with
        | zero => omega
        | succ f =>
          dsimp only
          rw [parseAt, he]
          cases e <;> first | rfl | exact absurd rfl (hne _ _)
      · rename_i x he
        cases h
        refine ⟨1, s2, fun k v h => h, fun f hf => ?_⟩
        cases f with
        | zero => omega
        | succ f => dsimp only; rw [parseAt, he]
    · -- locating
      intro num gen s v s1 h s2 hk
      have hv : regGet s2.reg (num, gen) = some v := hk _ _ (locate_ok h)
      by_cases ht : truthy v = true
      · refine ⟨1, s2, fun k v h => h, fun f hf => ?_⟩
        cases f with
        | zero => omega
        | succ f => dsimp only; rw [locate, hv]; simp only [ht, if_true]
      -- an object read again
      have hobj : ∀ f', f' ≤ fuel → ∀ off sa r sb, objectAt env f' off sa = (r, sb) → Soft r → ∀ s2, Knows sb s2 →
          ∃ r', Soft r' ∧ Again (fun f => objectAt env f off s2) s2 r' := by
        intro f' hf' off sa r sb ho hr s2 hk
        cases f' with
        | zero => rw [objectAt] at ho; cases ho; rcases hr with h | ⟨a, h⟩ <;> cases h
        | succ f' =>
          rw [objectAt] at ho
          split at ho
          · rename_i e sc hp
            cases ho
            have hr' : e = .parser := by
              rcases hr with h | ⟨a, h⟩
              · cases h; rfl
              · cases h
            subst hr'
            obtain ⟨F, s3, k3, h3⟩ := (ih f' (by omega)).1 [] off sa _ sb hp (Or.inl rfl) s2 hk
            refine ⟨.error .parser, Or.inl rfl, F + 1, s3, k3, fun f hf => ?_⟩
            cases f with
            | zero => omega
            | succ f =>
              dsimp only at h3 ⊢
              rw [objectAt, h3 f (by omega)]
          · rename_i n g w rest sc hp
            have hcb : Knows sc sb := by
              split at ho
              · cases ho; exact fun k v h => h
              · have hm := (mono_all env f').1 n g
                split at ho
                · rename_i hreg; cases ho; exact ((hm _ _).snd hreg).reg
                · rename_i hreg; cases ho; exact ((hm _ _).snd hreg).reg
            obtain ⟨F, s3, k3, h3⟩ := (ih f' (by omega)).1 [] off sa _ sc hp (Or.inr ⟨_, rfl⟩) s2 (hcb.trans hk)
            split at ho
            · rename_i e hd
              cases ho
              have hr' : e = .parser := by
                rcases hr with h | ⟨a, h⟩
                · cases h; rfl
                · cases h
              subst hr'
              refine ⟨.error .parser, Or.inl rfl, F + 1, s3, k3, fun f hf => ?_⟩
              cases f with
              | zero => omega
              | succ f =>
                dsimp only at h3 ⊢
                rw [objectAt, h3 f (by omega)]
                dsimp only
                rw [hd]
            · rename_i w' hd
              have hreg : ∃ u, regGet sb.reg (n, g) = some u := by
                have hne : (register env f' n g w' sc).1 ≠ .error .diverges ∨ f' ≠ 0 := by
                  by_cases hz : f' = 0
                  · subst hz
                    rw [parseAt] at hp; cases hp
                  · exact Or.inr hz
                have := register_known hne
                split at ho
                · rename_i hq; cases ho; rw [hq] at this; exact this
                · rename_i hq; cases ho; rw [hq] at this; exact this
              obtain ⟨u, hu⟩ := hreg
              have hu3 := k3 _ _ (hk _ _ hu)
              refine ⟨.ok (env.file.length - rest.length), Or.inr ⟨_, rfl⟩, F + 2, s3, k3, fun f hf => ?_⟩
              cases f with
              | zero => omega
              | succ f =>
                cases f with
                | zero => omega
                | succ f =>
                  dsimp only at h3 ⊢
                  rw [objectAt, h3 (f + 1) (by omega)]
                  dsimp only
                  rw [hd]
                  dsimp only
                  rw [register, hu3]
      -- the sections searched again
      have hx : ∀ (xs : List XRef) (f' : Nat), f' ≤ fuel → ∀ sa o sb, byXref env f' num gen xs sa = (.ok o, sb) → ∀ s2, Knows sb s2 →
          regGet s2.reg (num, gen) = some v → ∃ o', Again (fun f => byXref env f num gen xs s2) s2 (.ok o') := by
        intro xs
        induction xs with
        | nil =>
          intro f' _ sa o sb _ s2 _ h2
          refine ⟨some v, 1, s2, fun k v h => h, fun f hf => ?_⟩
          cases f with
          | zero => omega
          | succ f => dsimp only; rw [byXref, h2]
        | cons x xs ihx =>
          intro f' hf' sa o sb hb s2 hk h2
          cases f' with
          | zero => rw [byXref] at hb; cases hb
          | succ f' =>
            rw [byXref] at hb
            split at hb
            · rename_i hnone
              obtain ⟨o', F, s3, k3, h3⟩ := ihx f' (by omega) sa o sb hb s2 hk h2
              refine ⟨o', F + 1, s3, k3, fun f hf => ?_⟩
              cases f with
              | zero => omega
              | succ f =>
                dsimp only at h3 ⊢
                rw [byXref, hnone]
                exact h3 f (by omega)
            · rename_i e he
              split at hb
              · rename_i hg
                have hsoft : ∃ r sc, objectAt env f' e.offset sa = (r, sc) ∧ Soft r ∧ Knows sc sb := by
                  have hmx := (mono_all env f').2.2.2.2.2.2.2.1 num gen xs
                  split at hb
                  · rename_i sc hob
                    refine ⟨_, sc, hob, Or.inl rfl, ?_⟩
                    split at hb
                    · cases hb; exact fun k v h => h
                    · exact ((hmx _).snd hb).reg
                  · cases hb
                  · rename_i p sc hob
                    refine ⟨_, sc, hob, Or.inr ⟨_, rfl⟩, ?_⟩
                    split at hb
                    · cases hb; exact fun k v h => h
                    · exact ((hmx _).snd hb).reg
                obtain ⟨r, sc, hob, hr, hkc⟩ := hsoft
                obtain ⟨r', hr', F, s3, k3, h3⟩ := hobj f' (by omega) _ _ _ _ hob hr s2 (hkc.trans hk)
                refine ⟨some v, F + 1, s3, k3, fun f hf => ?_⟩
                cases f with
                | zero => omega
                | succ f =>
                  dsimp only at h3 ⊢
                  rw [byXref, he]
                  dsimp only
                  rw [if_pos hg, h3 f (by omega)]
                  rcases hr' with rfl | ⟨a, rfl⟩ <;> dsimp only <;> rw [k3 _ _ h2]
              · rename_i hg
                obtain ⟨o', F, s3, k3, h3⟩ := ihx f' (by omega) sa o sb hb s2 hk h2
                refine ⟨o', F + 1, s3, k3, fun f hf => ?_⟩
                cases f with
                | zero => omega
                | succ f =>
                  dsimp only at h3 ⊢
                  rw [byXref, he]
                  dsimp only
                  rw [if_neg hg]
                  exact h3 f (by omega)
      have hfirst : ∃ o sb, byXref env fuel num gen env.xrefs s = (.ok o, sb) ∧ Knows sb s1 := by
        have hmb := (mono_all env fuel).2.2.2.2.2.2.1 num gen
        rw [locate] at h
        split at h
        · rename_i u hu
          split at h
          · rename_i htu; cases h; exact absurd htu ht
          · split at h
            · cases h
            · rename_i o sb hq; exact ⟨o, sb, hq, ((hmb _).snd h).reg⟩
        · split at h
          · cases h
          · rename_i o sb hq; exact ⟨o, sb, hq, ((hmb _).snd h).reg⟩
      obtain ⟨o, sb, hq, hkb⟩ := hfirst
      obtain ⟨o', F, s3, k3, h3⟩ := hx env.xrefs fuel (Nat.le_refl _) s o sb hq s2 (hkb.trans hk) hv
      have hv3 := k3 _ _ hv
      refine ⟨F + 2, s3, k3, fun f hf => ?_⟩
      cases f with
      | zero => omega
      | succ f =>
        dsimp only at h3 ⊢
        rw [locate, hv]
        dsimp only
        rw [if_neg ht, h3 f (by omega)]
        dsimp only
        cases f with
        | zero => omega
        | succ f => rw [bruteForce, hv3]

end PdfReader
