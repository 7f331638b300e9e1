/-
  Lemmas about Model/Eager.lean.
-/
import Verif.Spec.Eager
import Verif.Props.Objects

namespace PdfReader

open Spec

variable {σ : Type} {I : σ → Prop} {loc : Locator σ} {store : Store}

/-! ### Objects which do not contain themselves -/

theorem whole_ref_inv {n g : Nat} {d : Deep} (h : Whole store (.ref n g) d) :
    ∃ o, store n g = some o ∧ (∀ n g, o ≠ .ref n g) ∧ Whole store o d := by
  cases h with
  | atom _ h => exact absurd h id
  | ref _ _ o _ h1 h2 h3 => exact ⟨o, h1, h2, h3⟩

theorem dictKind_det {es : List (Bytes × Obj)} {c c' : Option Bytes} (h : DictKind es c) (h' : DictKind es c') : c = c' :=
  Except.ok.inj ((dictKind_class h).symm.trans (dictKind_class h'))

theorem streamKind_det {es : List (Bytes × Obj)} {c c' : Bytes} (h : StreamKind es c) (h' : StreamKind es c') : c = c' :=
  Except.ok.inj ((streamKind_class h).symm.trans (streamKind_class h'))

mutual
theorem whole_det : ∀ {o : Obj} {d : Deep}, Whole store o d → ∀ {d'}, Whole store o d' → d = d'
  | _, _, .atom o h, d', h' => by
    cases h' with
    | atom => rfl
    | _ => exact absurd h id
  | _, _, .arr xs ds h, d', h' => by
    cases h' with
    | atom _ h => exact absurd h id
    | arr _ ds' h' => rw [wholeItems_det h h']
  | _, _, .dict es c ds hk h, d', h' => by
    cases h' with
    | atom _ h => exact absurd h id
    | dict _ c' ds' hk' h' => rw [wholeEntries_det h h', dictKind_det hk hk']
  | _, _, .stream es data c ds hk h, d', h' => by
    cases h' with
    | atom _ h => exact absurd h id
    | stream _ _ c' ds' hk' h' => rw [wholeEntries_det h h', streamKind_det hk hk']
  | _, _, .ref n g o d hs ho h, d', h' => by
    obtain ⟨o', h1, h2, h3⟩ := whole_ref_inv h'
    rw [hs] at h1
    cases h1
    exact whole_det h h3
theorem wholeItems_det : ∀ {xs : List Obj} {ds : List Deep}, WholeItems store xs ds → ∀ {ds'}, WholeItems store xs ds' → ds = ds'
  | _, _, .nil, _, h' => by cases h'; rfl
  | _, _, .cons x d xs ds h1 h2, _, h' => by
    cases h' with
    | cons _ _ _ _ h1' h2' => rw [whole_det h1 h1', wholeItems_det h2 h2']
theorem wholeEntries_det : ∀ {es : List (Bytes × Obj)} {ds : List (Bytes × Deep)}, WholeEntries store es ds → ∀ {ds'}, WholeEntries store es ds' → ds = ds'
  | _, _, .nil, _, h' => by cases h'; rfl
  | _, _, .cons k x d xs ds h1 h2, _, h' => by
    cases h' with
    | cons _ _ _ _ _ h1' h2' => rw [whole_det h1 h1', wholeEntries_det h2 h2']
end

mutual
theorem whole_reads : ∀ {o : Obj} {d : Deep}, Whole store o d → ∃ v, Reads store o v
  | _, _, .atom o h => ⟨_, .atom o h⟩
  | _, _, .arr xs ds h => by
    obtain ⟨vs, h⟩ := wholeItems_reads h
    exact ⟨_, h⟩
  | _, _, .dict es c ds hk h => ⟨_, .dict es c hk⟩
  | _, _, .stream d data c ds hk h => ⟨_, .stream d data c hk⟩
  | _, _, .ref n g o d hs ho h => by
    obtain ⟨v, h⟩ := whole_reads h
    exact ⟨v, .ref n g o v hs ho h⟩
theorem wholeItems_reads : ∀ {xs : List Obj} {ds : List Deep}, WholeItems store xs ds → ∃ vs, Reads store (.arr xs) (.arr vs)
  | _, _, .nil => ⟨_, .nil⟩
  | _, _, .cons x d xs ds h1 h2 => by
    obtain ⟨v, h1⟩ := whole_reads h1
    obtain ⟨vs, h2⟩ := wholeItems_reads h2
    exact ⟨_, .cons x v xs vs h1 h2⟩
end

theorem wholeEntries_items : ∀ {es : List (Bytes × Obj)} {ds : List (Bytes × Deep)}, WholeEntries store es ds → ∃ vs, ItemsAre store es vs
  | _, _, .nil => ⟨_, .nil⟩
  | _, _, .cons k x d es ds h1 h2 => by
    obtain ⟨v, h1⟩ := whole_reads h1
    obtain ⟨vs, h2⟩ := wholeEntries_items h2
    exact ⟨_, .cons k x v es vs h1 h2⟩

theorem reads_atomic {o : Obj} {v : Val} (ha : Atomic o) (h : Reads store o v) : v = .atom o := by
  cases h with
  | atom => rfl
  | _ => exact absurd ha id

theorem reads_arr {xs : List Obj} {v : Val} (h : Reads store (.arr xs) v) : ∃ vs, v = .arr vs := by
  cases h with
  | atom _ h => exact absurd h id
  | nil => exact ⟨_, rfl⟩
  | cons => exact ⟨_, rfl⟩

/-- The visited references contain more than this. -/
def FreshLt (store : Store) (visited : List Key) (m : Nat) : Prop := ∀ k ∈ visited, ∃ d, Whole store (.ref k.1 k.2) d ∧ m < sizeOf d

theorem FreshLt.le {visited : List Key} {m m' : Nat} (h : FreshLt store visited m) (hm : m' ≤ m) : FreshLt store visited m' := by
  intro k hk
  obtain ⟨d, h1, h2⟩ := h k hk
  exact ⟨d, h1, by omega⟩

theorem entries_assoc : ∀ {es : List (Bytes × Obj)} {ds : List (Bytes × Deep)}, WholeEntries store es ds → ∀ k,
    (dictGet es k = none → assoc k ds = none) ∧ ∀ n, dictGet es k = some (.name n) → assoc k ds = some (.atom (.name n))
  | _, _, .nil, k => ⟨fun _ => rfl, fun n h => by cases h⟩
  | _, _, .cons k' x d es ds h1 h2, k => by
    unfold dictGet assoc
    dsimp only
    by_cases h : k' = k
    · rw [if_pos h, if_pos h]
      refine ⟨fun e => (by cases e), fun n e => ?_⟩
      cases e
      cases h1 with
      | atom => rfl
    · rw [if_neg h, if_neg h]
      exact entries_assoc h2 k

theorem deepDict_gives {es : List (Bytes × Obj)} {ds : List (Bytes × Deep)} {c : Option Bytes} (hk : DictKind es c) (h : WholeEntries store es ds) :
    Gives I (deepDict ds) (.dict c ds) := by
  have e : deepDictClass ds = .ok c := by
    unfold deepDictClass
    obtain ⟨h1, h2⟩ := entries_assoc h b!"Type"
    cases hk with
    | typed t e ht => rw [h2 t e]; dsimp only; rw [if_pos ht]
    | other t e ht => rw [h2 t e]; dsimp only; rw [if_neg ht]
    | untyped e => rw [h1 e]
  unfold deepDict
  rw [e]
  exact gives_pure _

theorem deepStream_gives {es : List (Bytes × Obj)} {ds : List (Bytes × Deep)} {c : Bytes} (hk : StreamKind es c) (h : WholeEntries store es ds)
    (data : Bytes) : Gives I (deepStream data ds) (.stream c ds data) := by
  have e : deepStreamClass ds = .ok c := by
    unfold deepStreamClass
    obtain ⟨h1, h2⟩ := entries_assoc h b!"Type"
    obtain ⟨h3, h4⟩ := entries_assoc h b!"Subtype"
    cases hk with
    | xobject _ e1 e2 h3 =>
      rw [h2 _ e1, h4 _ e2]
      simp only [List.mem_cons, List.not_mem_nil, or_false] at h3
      rcases h3 with rfl | rfl | rfl <;> rfl
    | otherXObject u e1 e2 h3 =>
      simp only [List.mem_cons, List.not_mem_nil, or_false, not_or] at h3
      rw [h2 _ e1, h4 _ e2]
      simp only [Option.getD_some, if_true]
      rw [if_neg h3.1, if_neg h3.2.1, if_neg h3.2.2]
    | typed _ e1 h3 =>
      rw [h2 _ e1]
      simp only [List.mem_cons, List.not_mem_nil, or_false] at h3
      rcases h3 with rfl | rfl | rfl <;> rfl
    | other t e1 h3 =>
      simp only [List.mem_cons, List.not_mem_nil, or_false, not_or] at h3
      rw [h2 _ e1]
      simp only [Option.getD_some]
      rw [if_neg h3.1, if_neg h3.2.1, if_neg h3.2.2.1, if_neg h3.2.2.2]
    | plain e1 => rw [h1 e1]; rfl
  unfold deepStream
  rw [e]
  exact gives_pure _

theorem deepObj_atomic {o : Obj} (h : Atomic o) (fuel : Nat) (visited : List Key) : Gives I (deepObj loc (fuel + 1) visited o) (.atom o) := by
  unfold deepObj
  cases o <;> first | exact absurd h id | exact gives_pure _

theorem reads_ref {n g : Nat} {o : Obj} {v : Val} (hs : store n g = some o) (h : Reads store (.ref n g) v) : Reads store o v := by
  cases h with
  | atom _ h => exact absurd h id
  | ref _ _ o' _ h1 h2 h3 =>
    rw [hs] at h1
    cases h1
    exact h3

theorem reads_factory (hd : Delivers loc I store) {o : Obj} {v : Val} (ho : ∀ n g, o ≠ .ref n g) (h : Reads store o v) :
    Ev fun f => Gives I (factory loc f o) v := by
  by_cases ha : ∃ xs, o = .arr xs
  · obtain ⟨xs, rfl⟩ := ha
    obtain ⟨vs, rfl⟩ := reads_arr h
    exact factory_arr ((reads_build hd h).2 xs vs rfl rfl)
  · obtain ⟨F, h⟩ := (reads_build hd h).1
    exact ⟨F, fun f hf => factory_of_build ho (fun xs e => ha ⟨xs, e⟩) (h (f + 1) (by omega))⟩

mutual
theorem whole_deep (hd : Delivers loc I store) : ∀ {o : Obj} {d : Deep}, Whole store o d →
    (Ev fun f => ∀ visited, FreshLt store visited (sizeOf d) → Gives I (deepObj loc f visited o) d) ∧
    ∀ v, Reads store o v → Ev fun f => ∀ visited, (∀ m, m < sizeOf d → FreshLt store visited m) → Gives I (deepVal loc f visited v) d
  | _, _, .atom o h => by
    refine ⟨.succ (.all fun f visited _ => deepObj_atomic h f visited), fun v hv => ?_⟩
    rw [reads_atomic h hv]
    refine .succ (.succ (.all fun f visited _ => ?_))
    unfold deepVal
    exact deepObj_atomic h f visited
  | _, _, .arr xs ds h => by
    obtain ⟨ha, hb⟩ := items_deep hd h
    refine ⟨.succ (ha.mono fun f hf visited hv => ?_), fun v hv => ?_⟩
    · unfold deepObj
      exact gives_bind (hf visited (hv.le (by simp))) (gives_pure _)
    · obtain ⟨vs, rfl⟩ := reads_arr hv
      refine .succ ((hb vs hv).mono fun f hf visited hv => ?_)
      unfold deepVal
      exact gives_bind (hf visited (hv _ (by simp))) (gives_pure _)
  | _, _, .dict es c ds hk h => by
    obtain ⟨ha, hb⟩ := entries_deep hd h
    refine ⟨.succ (ha.mono fun f hf visited hv => ?_), fun v hv => ?_⟩
    · unfold deepObj
      exact gives_bind (hf visited (hv.le (by simp))) (deepDict_gives hk h)
    · obtain ⟨vs, hi⟩ := wholeEntries_items h
      cases hv with
      | atom _ h => exact absurd h id
      | dict _ c' hk' =>
        refine .succ (((hb vs hi).and (items_gives hd hi)).mono fun f hf visited hv => ?_)
        unfold deepVal
        exact gives_bind hf.2 (gives_bind (hf.1 visited (hv _ (by simp; omega))) (deepDict_gives hk h))
  | _, _, .stream d data c ds hk h => by
    obtain ⟨ha, hb⟩ := entries_deep hd h
    refine ⟨.succ (ha.mono fun f hf visited hv => ?_), fun v hv => ?_⟩
    · unfold deepObj
      exact gives_bind (hf visited (hv.le (by simp; omega))) (deepStream_gives hk h data)
    · cases hv with
      | atom _ h => exact absurd h id
      | stream _ _ c' hk' =>
        refine .succ (ha.mono fun f hf visited hv => ?_)
        unfold deepVal
        exact gives_bind (hf visited (hv _ (by simp; omega))) (deepStream_gives hk h data)
  | _, _, .ref n g o d hs ho h => by
    obtain ⟨ha, hb⟩ := whole_deep hd h
    refine ⟨?_, fun v hv => hb v (reads_ref hs hv)⟩
    obtain ⟨v, hv⟩ := whole_reads h
    refine .succ (((hb v hv).and (reads_factory hd ho hv)).mono fun f hf visited hvis => ?_)
    have hw : Whole store (.ref n g) d := .ref n g o d hs ho h
    have hn : (n, g) ∉ visited := by
      intro hm
      obtain ⟨d', h1, h2⟩ := hvis _ hm
      rw [whole_det hw h1] at h2
      omega
    unfold deepObj
    dsimp only
    rw [if_neg hn]
    refine gives_bind (fun s hi => hd n g o s hi hs) (gives_bind hf.2 ?_)
    have key := hf.1 ((n, g) :: visited) (by
      intro m hm k hk
      rcases List.mem_cons.1 hk with rfl | hk
      · exact ⟨d, hw, hm⟩
      · exact hvis.le (by omega) k hk)
    cases v with
    | atom a =>
      have : d = .atom a := by
        generalize hva : Val.atom a = va at hv
        cases hv with
        | atom o' h' =>
          cases hva
          cases h with
          | atom => rfl
          | _ => exact absurd h' id
        | ref => exact absurd rfl (ho _ _)
        | _ => cases hva
      subst this
      exact gives_pure _
    | arr vs => exact key
    | dict c es => exact key
    | stream c e data => exact key
theorem items_deep (hd : Delivers loc I store) : ∀ {xs : List Obj} {ds : List Deep}, WholeItems store xs ds →
    (Ev fun f => ∀ visited, FreshLt store visited (sizeOf ds) → Gives I (DM.mapM (deepObj loc f visited) xs) ds) ∧
    ∀ vs, Reads store (.arr xs) (.arr vs) → Ev fun f => ∀ visited, FreshLt store visited (sizeOf ds) → Gives I (DM.mapM (deepVal loc f visited) vs) ds
  | _, _, .nil => by
    refine ⟨.all fun f visited _ => gives_mapM_nil _, fun vs h => ?_⟩
    cases h with
    | nil => exact .all fun f visited _ => gives_mapM_nil _
  | _, _, .cons x d xs ds h1 h2 => by
    obtain ⟨a1, b1⟩ := whole_deep hd h1
    obtain ⟨a2, b2⟩ := items_deep hd h2
    refine ⟨(a1.and a2).mono fun f hf visited hv => gives_mapM_cons (hf.1 visited (hv.le (by simp; omega))) (hf.2 visited (hv.le (by simp))), fun vs h => ?_⟩
    cases h with
    | cons _ v _ vs hv hvs =>
      exact ((b1 v hv).and (b2 vs hvs)).mono fun f hf visited hv => gives_mapM_cons (hf.1 visited fun m hm => hv.le (by simp; omega))
        (hf.2 visited (hv.le (by simp)))
theorem entries_deep (hd : Delivers loc I store) : ∀ {es : List (Bytes × Obj)} {ds : List (Bytes × Deep)}, WholeEntries store es ds →
    (Ev fun f => ∀ visited, FreshLt store visited (sizeOf ds) → Gives I (deepEntries (deepObj loc f visited) es) ds) ∧
    ∀ vs, ItemsAre store es vs → Ev fun f => ∀ visited, FreshLt store visited (sizeOf ds) → Gives I (deepEntries (deepVal loc f visited) vs) ds
  | _, _, .nil => by
    refine ⟨.all fun f visited _ => gives_mapM_nil _, fun vs h => ?_⟩
    cases h with
    | nil => exact .all fun f visited _ => gives_mapM_nil _
  | _, _, .cons k x d xs ds h1 h2 => by
    obtain ⟨a1, b1⟩ := whole_deep hd h1
    obtain ⟨a2, b2⟩ := entries_deep hd h2
    refine ⟨(a1.and a2).mono fun f hf visited hv => gives_mapM_cons (gives_bind (hf.1 visited (hv.le (by simp; omega))) (gives_pure _))
      (hf.2 visited (hv.le (by simp))), fun vs h => ?_⟩
    cases h with
    | cons _ _ v _ vs hv hvs =>
      exact ((b1 v hv).and (b2 vs hvs)).mono fun f hf visited hv => gives_mapM_cons (gives_bind (hf.1 visited fun m hm => hv.le (by simp; omega))
        (gives_pure _)) (hf.2 visited (hv.le (by simp)))
end

/-! ### Objects which contain themselves -/

/-- Computations which keep the invariant; what they return is as `Q` says. -/
def KeepsTo {α : Type} (I : σ → Prop) (m : DM σ α) (Q : α → Prop) : Prop := ∀ s, I s → I (m s).2 ∧ ∀ a, (m s).1 = .ok a → Q a

theorem keepsTo_pure {α : Type} {r : Res α} {Q : α → Prop} (h : ∀ a, r = .ok a → Q a) : KeepsTo I (DM.pure r) Q := fun _ hs => ⟨hs, h⟩

theorem keepsTo_bind {α β : Type} {m : DM σ α} {f : α → DM σ β} {P : α → Prop} {Q : β → Prop} (h1 : KeepsTo I m P)
    (h2 : ∀ a, P a → KeepsTo I (f a) Q) : KeepsTo I (m.bind f) Q := by
  intro s hs
  obtain ⟨i, p⟩ := h1 s hs
  unfold DM.bind
  generalize m s = r at i p
  obtain ⟨r1, r2⟩ := r
  cases r1 with
  | error e => exact ⟨i, fun a e => by cases e⟩
  | ok a => exact h2 a (p a rfl) _ i

theorem keepsTo_mapM {α β : Type} {f : α → DM σ β} {Q : β → Prop} : ∀ (xs : List α), (∀ x ∈ xs, KeepsTo I (f x) Q) →
    KeepsTo I (DM.mapM f xs) fun ys => ∀ y ∈ ys, Q y
  | [], _ => keepsTo_pure fun a e => by cases e; simp
  | x :: xs, h => by
    unfold DM.mapM
    refine keepsTo_bind (h x (by simp)) fun y hy => keepsTo_bind (keepsTo_mapM xs fun x hx => h x (by simp [hx])) fun ys hys => keepsTo_pure ?_
    intro a e
    cases e
    intro z hz
    rcases List.mem_cons.1 hz with rfl | hz
    · exact hy
    · exact hys z hz

/-- The references in a value of the document. -/
inductive RefsInV (D : Nat → Nat → Prop) : Val → Prop
  | atom (o : Obj) : RefsIn D o → RefsInV D (.atom o)
  | arr (vs : List Val) : (∀ v ∈ vs, RefsInV D v) → RefsInV D (.arr vs)
  | dict (c : Option Bytes) (es : List (Bytes × Obj)) : (∀ e ∈ es, RefsIn D e.2) → RefsInV D (.dict c es)
  | stream (c : Bytes) (d : List (Bytes × Obj)) (data : Bytes) : (∀ e ∈ d, RefsIn D e.2) → RefsInV D (.stream c d data)

/-- Asking for these objects keeps the invariant, and they refer to such objects only. -/
def Stays (loc : Locator σ) (I : σ → Prop) (D : Nat → Nat → Prop) : Prop := ∀ n g, D n g → KeepsTo I (loc n g) (RefsIn D)

variable {D : Nat → Nat → Prop}

theorem refsIn_ref {n g : Nat} (h : RefsIn D (.ref n g)) : D n g := by
  cases h with
  | atom _ h => exact absurd h id
  | ref _ _ h => exact h

theorem refsIn_arr {xs : List Obj} (h : RefsIn D (.arr xs)) : ∀ x ∈ xs, RefsIn D x := by
  cases h with
  | atom _ h => exact absurd h id
  | arr _ h => exact h

theorem refsIn_dict {es : List (Bytes × Obj)} (h : RefsIn D (.dict es)) : ∀ e ∈ es, RefsIn D e.2 := by
  cases h with
  | atom _ h => exact absurd h id
  | dict _ h => exact h

theorem refsIn_stream {es : List (Bytes × Obj)} {data : Bytes} (h : RefsIn D (.stream es data)) : ∀ e ∈ es, RefsIn D e.2 := by
  cases h with
  | atom _ h => exact absurd h id
  | stream _ _ h => exact h

theorem build_stays (hst : Stays loc I D) : ∀ fuel,
    (∀ o, RefsIn D o → KeepsTo I (factory loc fuel o) (RefsInV D)) ∧
    (∀ visited o, RefsIn D o → KeepsTo I (build loc fuel visited o) (RefsInV D)) ∧
    (∀ visited v, RefsInV D v → KeepsTo I (rebuild loc fuel visited v) (RefsInV D)) := by
  intro fuel
  induction fuel with
  | zero => exact ⟨fun o _ => keepsTo_pure fun a e => (by cases e), fun _ o _ => keepsTo_pure fun a e => (by cases e), fun _ o _ => keepsTo_pure fun a e => (by cases e)⟩
  | succ fuel ih =>
    obtain ⟨ih1, ih2, ih3⟩ := ih
    have hf : ∀ o, RefsIn D o → KeepsTo I (factory loc (fuel + 1) o) (RefsInV D) := by
      intro o ho
      unfold factory
      cases o with
      | arr xs => exact keepsTo_bind (keepsTo_mapM xs fun x hx => ih2 [] x (refsIn_arr ho x hx)) fun vs hvs => keepsTo_pure fun a e => by cases e; exact .arr vs hvs
      | dict es =>
        refine keepsTo_pure fun a e => ?_
        cases hc : dictClass es with
        | error e' => rw [hc] at e; cases e
        | ok c => rw [hc] at e; cases e; exact .dict c es (refsIn_dict ho)
      | stream es data =>
        refine keepsTo_pure fun a e => ?_
        cases hc : streamClass es with
        | error e' => rw [hc] at e; cases e
        | ok c => rw [hc] at e; cases e; exact .stream c es data (refsIn_stream ho)
      | _ => exact keepsTo_pure fun a e => by cases e; exact .atom _ ho
    refine ⟨hf, fun visited o ho => ?_, fun visited v hv => ?_⟩
    · unfold build
      cases o with
      | ref n g =>
        dsimp only
        by_cases hm : (n, g) ∈ visited
        · rw [if_pos hm]
          exact keepsTo_pure fun a e => by cases e; exact .atom _ ho
        · rw [if_neg hm]
          refine keepsTo_bind (hst n g (refsIn_ref ho)) fun x hx => keepsTo_bind (ih1 x hx) fun v hv => ?_
          cases hv with
          | arr vs hvs => exact keepsTo_bind (keepsTo_mapM vs fun v hv => ih3 _ v (hvs v hv)) fun vs hvs => keepsTo_pure fun a e => by cases e; exact .arr vs hvs
          | atom o h => exact keepsTo_pure fun a e => by cases e; exact .atom o h
          | dict c es h => exact keepsTo_pure fun a e => by cases e; exact .dict c es h
          | stream c es data h => exact keepsTo_pure fun a e => by cases e; exact .stream c es data h
      | arr xs => exact keepsTo_bind (keepsTo_mapM xs fun x hx => ih2 visited x (refsIn_arr ho x hx)) fun vs hvs => keepsTo_pure fun a e => by cases e; exact .arr vs hvs
      | _ => exact ih1 _ ho
    · unfold rebuild
      cases hv with
      | arr vs hvs => exact keepsTo_bind (keepsTo_mapM vs fun v hv => ih3 _ v (hvs v hv)) fun vs hvs => keepsTo_pure fun a e => by cases e; exact .arr vs hvs
      | atom o h => exact ih2 visited o h
      | dict c es h => exact keepsTo_pure fun a e => by cases e; exact .dict c es h
      | stream c es data h => exact keepsTo_pure fun a e => by cases e; exact .stream c es data h

theorem keepsTo_entries {α : Type} {f : α → DM σ Deep} (es : List (Bytes × α)) (h : ∀ e ∈ es, KeepsTo I (f e.2) fun _ => True) :
    KeepsTo I (deepEntries f es) fun _ => True :=
  fun s hs => ⟨(keepsTo_mapM (Q := fun _ => True) es (fun e he => keepsTo_bind (h e he) fun _ _ => keepsTo_pure fun _ _ => trivial) s hs).1, fun _ _ => trivial⟩

theorem items_stays (hst : Stays loc I D) (fuel : Nat) (es : List (Bytes × Obj)) (h : ∀ e ∈ es, RefsIn D e.2) :
    KeepsTo I (itemsOf loc fuel es) fun items => ∀ e ∈ items, RefsInV D e.2 :=
  keepsTo_mapM (Q := fun (e : Bytes × Val) => RefsInV D e.2) es fun e he => keepsTo_bind ((build_stays hst fuel).2.1 [] e.2 (h e he)) fun v hv => keepsTo_pure fun a e => by cases e; exact hv

theorem deep_stays (hst : Stays loc I D) : ∀ fuel,
    (∀ visited o, RefsIn D o → KeepsTo I (deepObj loc fuel visited o) fun _ => True) ∧
    (∀ visited v, RefsInV D v → KeepsTo I (deepVal loc fuel visited v) fun _ => True) := by
  intro fuel
  induction fuel with
  | zero => exact ⟨fun _ o _ => keepsTo_pure fun a e => trivial, fun _ o _ => keepsTo_pure fun a e => trivial⟩
  | succ fuel ih =>
    obtain ⟨ih1, ih2⟩ := ih
    refine ⟨fun visited o ho => ?_, fun visited v hv => ?_⟩
    · unfold deepObj
      cases o with
      | ref n g =>
        dsimp only
        by_cases hm : (n, g) ∈ visited
        · rw [if_pos hm]
          exact keepsTo_pure fun a e => trivial
        · rw [if_neg hm]
          refine keepsTo_bind (hst n g (refsIn_ref ho)) fun x hx => keepsTo_bind ((build_stays hst fuel).1 x hx) fun v hv => ?_
          cases v with
          | atom o => exact keepsTo_pure fun a e => trivial
          | arr vs => exact ih2 _ _ hv
          | dict c es => exact ih2 _ _ hv
          | stream c es data => exact ih2 _ _ hv
      | arr xs => exact keepsTo_bind (keepsTo_mapM (Q := fun _ => True) xs fun x hx => ih1 visited x (refsIn_arr ho x hx)) fun vs hvs => keepsTo_pure fun a e => trivial
      | dict es => exact keepsTo_bind (keepsTo_entries es fun e he => ih1 visited e.2 (refsIn_dict ho e he)) fun _ _ => keepsTo_pure fun _ _ => trivial
      | stream es data => exact keepsTo_bind (keepsTo_entries es fun e he => ih1 visited e.2 (refsIn_stream ho e he)) fun _ _ => keepsTo_pure fun _ _ => trivial
      | _ => exact keepsTo_pure fun a e => trivial
    · unfold deepVal
      cases hv with
      | atom o h => exact ih1 visited o h
      | arr vs hvs => exact keepsTo_bind (keepsTo_mapM (Q := fun _ => True) vs fun v hv => ih2 _ v (hvs v hv)) fun vs hvs => keepsTo_pure fun a e => trivial
      | dict c es h =>
        exact keepsTo_bind (items_stays hst fuel es h) fun items hi => keepsTo_bind (keepsTo_entries items fun e he => ih2 visited e.2 (hi e he)) fun _ _ =>
          keepsTo_pure fun _ _ => trivial
      | stream c es data h => exact keepsTo_bind (keepsTo_entries es fun e he => ih1 visited e.2 (h e he)) fun _ _ => keepsTo_pure fun _ _ => trivial

/-- Computations which end with no value. -/
def NoValue {α : Type} (I : σ → Prop) (m : DM σ α) : Prop := ∀ s, I s → ∀ a, (m s).1 ≠ .ok a

theorem noValue_pure {α : Type} (e : Exc) : NoValue I (DM.pure (.error e) : DM σ α) := fun _ _ _ h => by cases h

theorem noValue_bind {α β : Type} {m : DM σ α} {f : α → DM σ β} (h : NoValue I m) : NoValue I (m.bind f) := by
  intro s hs b
  have := h s hs
  unfold DM.bind
  generalize m s = r at this
  obtain ⟨r1, r2⟩ := r
  cases r1 with
  | error e => exact fun h => by cases h
  | ok a => exact absurd rfl (this a)

theorem noValue_then {α β : Type} {m : DM σ α} {f : α → DM σ β} {P : α → Prop} (h1 : KeepsTo I m P) (h : ∀ a, P a → NoValue I (f a)) :
    NoValue I (m.bind f) := by
  intro s hs b
  obtain ⟨i, p⟩ := h1 s hs
  unfold DM.bind
  generalize m s = r at i p
  obtain ⟨r1, r2⟩ := r
  cases r1 with
  | error e => exact fun h => by cases h
  | ok a => exact h a (p a rfl) _ i b

theorem noValue_mapM {α β : Type} {f : α → DM σ β} : ∀ (xs : List α), (∀ x ∈ xs, KeepsTo I (f x) fun _ => True) → (∃ x ∈ xs, NoValue I (f x)) →
    NoValue I (DM.mapM f xs)
  | [], _, h => by
    obtain ⟨x, hx, _⟩ := h
    cases hx
  | x :: xs, h, hx => by
    unfold DM.mapM
    obtain ⟨y, hy, hn⟩ := hx
    rcases List.mem_cons.1 hy with rfl | hy
    · exact noValue_bind hn
    · exact noValue_then (h x (by simp)) fun _ _ => noValue_bind (noValue_mapM xs (fun x hx => h x (by simp [hx])) ⟨y, hy, hn⟩)

/-- The value is this dictionary, or an array with such an element. -/
inductive WithinV (es : List (Bytes × Obj)) : Val → Prop
  | here (c : Option Bytes) : WithinV es (.dict c es)
  | item (vs : List Val) (v : Val) : v ∈ vs → WithinV es v → WithinV es (.arr vs)

theorem keepsTo_mem {α β : Type} {f : α → DM σ β} {Q : β → Prop} : ∀ (xs : List α), (∀ x ∈ xs, KeepsTo I (f x) fun _ => True) →
    (∃ x ∈ xs, KeepsTo I (f x) Q) → KeepsTo I (DM.mapM f xs) fun ys => ∃ y ∈ ys, Q y
  | [], _, h => by
    obtain ⟨x, hx, _⟩ := h
    cases hx
  | x :: xs, h, hx => by
    unfold DM.mapM
    obtain ⟨y, hy, hn⟩ := hx
    rcases List.mem_cons.1 hy with rfl | hy
    · exact keepsTo_bind hn fun b hb => keepsTo_bind (keepsTo_mapM (Q := fun _ => True) xs fun x hx => h x (by simp [hx])) fun bs _ =>
        keepsTo_pure fun a e => by cases e; exact ⟨b, by simp, hb⟩
    · exact keepsTo_bind (h x (by simp)) fun b _ => keepsTo_bind (keepsTo_mem xs (fun x hx => h x (by simp [hx])) ⟨y, hy, hn⟩) fun bs hbs =>
        keepsTo_pure fun a e => by
          cases e
          obtain ⟨z, hz, hq⟩ := hbs
          exact ⟨z, by simp [hz], hq⟩

theorem KeepsTo.weak {α : Type} {m : DM σ α} {P Q : α → Prop} (h : KeepsTo I m P) (hq : ∀ a, P a → Q a) : KeepsTo I m Q :=
  fun s hs => ⟨(h s hs).1, fun a e => hq a ((h s hs).2 a e)⟩

theorem rebuild_within (hst : Stays loc I D) {es : List (Bytes × Obj)} : ∀ fuel visited v, RefsInV D v → WithinV es v →
    KeepsTo I (rebuild loc fuel visited v) (WithinV es) := by
  intro fuel
  induction fuel with
  | zero => exact fun _ _ _ _ => keepsTo_pure fun a e => by cases e
  | succ fuel ih =>
    intro visited v hr hv
    unfold rebuild
    cases hv with
    | here c => exact keepsTo_pure fun a e => by cases e; exact .here c
    | item vs v hm h =>
      cases hr with
      | arr _ hr =>
        refine keepsTo_bind (keepsTo_mem vs (fun x hx => ((build_stays hst fuel).2.2 visited x (hr x hx)).weak fun _ _ => trivial)
          ⟨v, hm, ih visited v (hr v hm) h⟩) fun ys hys => keepsTo_pure fun a e => ?_
        cases e
        obtain ⟨y, hy, hw⟩ := hys
        exact .item ys y hy hw

theorem keepsTo_both {α : Type} {m : DM σ α} {P Q : α → Prop} (h1 : KeepsTo I m P) (h2 : KeepsTo I m Q) : KeepsTo I m fun a => P a ∧ Q a :=
  fun s hs => ⟨(h1 s hs).1, fun a e => ⟨(h1 s hs).2 a e, (h2 s hs).2 a e⟩⟩

theorem build_within (hd : Delivers loc I store) (hst : Stays loc I D) {es : List (Bytes × Obj)} {o : Obj} (hw : Within store es o) :
    RefsIn D o → ∀ fuel, KeepsTo I (build loc fuel [] o) (WithinV es) ∧ ((∀ n g, o ≠ .ref n g) → KeepsTo I (factory loc fuel o) (WithinV es)) := by
  induction hw with
  | here =>
    intro hr fuel
    have hf : ∀ fuel, KeepsTo I (factory loc fuel (.dict es)) (WithinV es) := by
      intro fuel
      cases fuel with
      | zero => exact keepsTo_pure fun a e => by cases e
      | succ fuel =>
        unfold factory
        refine keepsTo_pure fun a e => ?_
        cases hc : dictClass es with
        | error e' => rw [hc] at e; cases e
        | ok c => rw [hc] at e; cases e; exact .here c
    refine ⟨?_, fun _ => hf fuel⟩
    cases fuel with
    | zero => exact keepsTo_pure fun a e => by cases e
    | succ fuel => unfold build; exact hf fuel
  | ref n g o hs ho h ih =>
    intro hr fuel
    refine ⟨?_, fun h => absurd rfl (h n g)⟩
    cases fuel with
    | zero => exact keepsTo_pure fun a e => by cases e
    | succ fuel =>
      unfold build
      dsimp only
      rw [if_neg (by simp)]
      have hl : KeepsTo I (loc n g) fun x => x = o ∧ RefsIn D o := by
        intro s hi
        obtain ⟨e, i⟩ := hd n g o s hi hs
        refine ⟨i, fun a ea => ?_⟩
        have hq := (hst n g (refsIn_ref hr) s hi).2 a ea
        rw [e] at ea
        cases ea
        exact ⟨rfl, hq⟩
      refine keepsTo_bind hl fun x hx => ?_
      obtain ⟨rfl, hrx⟩ := hx
      refine keepsTo_bind (keepsTo_both ((ih hrx fuel).2 ho) ((build_stays hst fuel).1 x hrx)) fun v hv => ?_
      obtain ⟨hv, hrv⟩ := hv
      cases hv with
      | here c => exact keepsTo_pure fun a e => by cases e; exact .here c
      | item vs v hm hwv =>
        cases hrv with
        | arr _ hrv =>
          refine keepsTo_bind (keepsTo_mem vs (fun x hx => ((build_stays hst fuel).2.2 _ x (hrv x hx)).weak fun _ _ => trivial)
            ⟨v, hm, rebuild_within hst fuel _ v (hrv v hm) hwv⟩) fun ys hys => keepsTo_pure fun a e => ?_
          cases e
          obtain ⟨y, hy, hw⟩ := hys
          exact .item ys y hy hw
  | item xs x hm h ih =>
    intro hr fuel
    have hrx := refsIn_arr hr
    have key : ∀ fuel, KeepsTo I ((DM.mapM (build loc fuel []) xs).bind fun vs => DM.pure (.ok (Val.arr vs))) (WithinV es) := by
      intro fuel
      refine keepsTo_bind (keepsTo_mem xs (fun x hx => ((build_stays hst fuel).2.1 [] x (hrx x hx)).weak fun _ _ => trivial)
          ⟨x, hm, (ih (hrx x hm) fuel).1⟩) fun ys hys => keepsTo_pure fun a e => ?_
      cases e
      obtain ⟨y, hy, hw⟩ := hys
      exact .item ys y hy hw
    cases fuel with
    | zero => exact ⟨keepsTo_pure fun a e => (by cases e), fun _ => keepsTo_pure fun a e => (by cases e)⟩
    | succ fuel => 
      refine ⟨?_, fun _ => ?_⟩
      · unfold build
        exact key fuel
      · unfold factory
        exact key fuel

theorem noValue_entries {α : Type} {f : α → DM σ Deep} (es : List (Bytes × α)) (h : ∀ e ∈ es, KeepsTo I (f e.2) fun _ => True)
    (hx : ∃ e ∈ es, NoValue I (f e.2)) : NoValue I (deepEntries f es) := by
  obtain ⟨e, he, hn⟩ := hx
  exact noValue_mapM es (fun e he => keepsTo_bind (h e he) fun _ _ => keepsTo_pure fun _ _ => trivial) ⟨e, he, noValue_bind hn⟩

/-- Dictionaries each of which holds another one of them are built without end. -/
theorem deepVal_endless (hd : Delivers loc I store) (hst : Stays loc I D) (P : List (Bytes × Obj) → Prop)
    (hP : ∀ es, P es → (∀ e ∈ es, RefsIn D e.2) ∧ ∃ es', P es' ∧ ∃ e ∈ es, Within store es' e.2) :
    ∀ fuel visited v es, P es → WithinV es v → RefsInV D v → NoValue I (deepVal loc fuel visited v) := by
  intro fuel
  induction fuel with
  | zero => exact fun _ _ _ _ _ _ => noValue_pure _
  | succ fuel ih =>
    intro visited v es hp hv hr
    unfold deepVal
    cases hv with
    | here c =>
      obtain ⟨hre, es', hp', e, he, hw⟩ := hP es hp
      dsimp only
      have hi : KeepsTo I (itemsOf loc fuel es) fun items => (∀ e ∈ items, RefsInV D e.2) ∧ ∃ e ∈ items, WithinV es' e.2 :=
        keepsTo_both (items_stays hst fuel es hre) (keepsTo_mem (Q := fun (e : Bytes × Val) => WithinV es' e.2) es
          (fun e he => keepsTo_bind ((build_stays hst fuel).2.1 [] e.2 (hre e he)) fun v hv => keepsTo_pure fun a e => trivial)
          ⟨e, he, keepsTo_bind (build_within hd hst hw (hre e he) fuel).1 fun v hv => keepsTo_pure fun a e => by cases e; exact hv⟩)
      refine noValue_then hi fun items hi => noValue_bind ?_
      obtain ⟨h1, e, he, h2⟩ := hi
      exact noValue_entries items (fun e he => (deep_stays hst fuel).2 visited e.2 (h1 e he)) ⟨e, he, ih visited e.2 es' hp' h2 (h1 e he)⟩
    | item vs v hm hw =>
      cases hr with
      | arr _ hr => exact noValue_bind (noValue_mapM vs (fun v hv => (deep_stays hst fuel).2 visited v (hr v hv)) ⟨v, hm, ih visited v es hp hw (hr v hm)⟩)

/-- The same when the dictionary is asked for by a reference. -/
theorem deepObj_endless (hd : Delivers loc I store) (hst : Stays loc I D) (P : List (Bytes × Obj) → Prop)
    (hP : ∀ es, P es → (∀ e ∈ es, RefsIn D e.2) ∧ ∃ es', P es' ∧ ∃ e ∈ es, Within store es' e.2) (fuel : Nat) (n g : Nat) (es : List (Bytes × Obj))
    (hs : store n g = some (.dict es)) (hp : P es) : NoValue I (deepObj loc fuel [] (.ref n g)) := by
  cases fuel with
  | zero => exact noValue_pure _
  | succ fuel =>
    unfold deepObj
    dsimp only
    rw [if_neg (by simp)]
    have hl : KeepsTo I (loc n g) fun x => x = .dict es := by
      intro s hi
      obtain ⟨e, i⟩ := hd n g _ s hi hs
      exact ⟨i, fun a ea => by rw [e] at ea; cases ea; rfl⟩
    refine noValue_then hl fun x hx => ?_
    subst hx
    have hr : RefsIn D (.dict es) := .dict es (hP es hp).1
    refine noValue_then (keepsTo_both ((build_within hd hst .here hr fuel).2 (by simp)) ((build_stays hst fuel).1 _ hr)) fun v hv => ?_
    obtain ⟨hv, hrv⟩ := hv
    have key := fun vis => deepVal_endless hd hst P hP fuel vis v es hp hv hrv
    cases hv with
    | here c => exact key _
    | item vs v hm hw => exact key _

/-- Objects without dangling references. -/
theorem stays_of (hd : Delivers loc I store) (h : NoDangling store) : Stays loc I fun n g => store n g ≠ none := by
  intro n g hn s hs
  cases ho : store n g with
  | none => exact absurd ho hn
  | some o =>
    obtain ⟨e, i⟩ := hd n g o s hs ho
    exact ⟨i, fun a ea => by rw [e] at ea; cases ea; exact h n g o ho⟩

end PdfReader
