/-
  The object layer over two parsers which deliver the same objects.
-/
import Verif.Model.View
import Verif.Model.Walk
import Verif.Lemmas.Eager

namespace PdfReader

open Spec

/-- Two computations on the states of two parsers end in the same way, keep the invariants, and what they return is as `Q` says. -/
def Concur {σ τ α : Type} (I : σ → Prop) (J : τ → Prop) (m : DM σ α) (m' : DM τ α) (Q : α → Prop) : Prop :=
  ∀ s t, I s → J t → (m s).1 = (m' t).1 ∧ I (m s).2 ∧ J (m' t).2 ∧ ∀ a, (m s).1 = .ok a → Q a

section
variable {σ τ : Type} {I : σ → Prop} {J : τ → Prop}

theorem agrees_pure {α : Type} {r : Res α} {Q : α → Prop} (h : ∀ a, r = .ok a → Q a) : Concur I J (DM.pure r) (DM.pure r) Q := fun _ _ hs ht => ⟨rfl, hs, ht, h⟩

theorem agrees_ok {α : Type} {a : α} {Q : α → Prop} (h : Q a) : Concur I J (DM.pure (.ok a)) (DM.pure (.ok a)) Q := agrees_pure fun b e => by cases e; exact h

theorem agrees_error {α : Type} {e : Exc} {Q : α → Prop} : Concur I J (DM.pure (.error e) : DM σ α) (DM.pure (.error e)) Q := agrees_pure fun b e => by cases e

theorem agrees_bind {α β : Type} {m : DM σ α} {m' : DM τ α} {f : α → DM σ β} {f' : α → DM τ β} {P : α → Prop} {Q : β → Prop} (h1 : Concur I J m m' P)
    (h2 : ∀ a, P a → Concur I J (f a) (f' a) Q) : Concur I J (m.bind f) (m'.bind f') Q := by
  intro s t hs ht
  obtain ⟨e, i, j, p⟩ := h1 s t hs ht
  unfold DM.bind
  generalize m s = r at e i p
  generalize m' t = r' at e j
  obtain ⟨r1, r2⟩ := r
  obtain ⟨r1', r2'⟩ := r'
  cases e
  cases r1 with
  | error e => exact ⟨rfl, i, j, fun a e => by cases e⟩
  | ok a => exact h2 a (p a rfl) _ _ i j

theorem agrees_mapM {α β : Type} {f : α → DM σ β} {f' : α → DM τ β} {Q : β → Prop} : ∀ (xs : List α), (∀ x ∈ xs, Concur I J (f x) (f' x) Q) →
    Concur I J (DM.mapM f xs) (DM.mapM f' xs) fun ys => ∀ y ∈ ys, Q y
  | [], _ => agrees_ok (by simp)
  | x :: xs, h => by
    unfold DM.mapM
    refine agrees_bind (h x (by simp)) fun y hy => agrees_bind (agrees_mapM xs fun x hx => h x (by simp [hx])) fun ys hys => agrees_ok ?_
    intro z hz
    rcases List.mem_cons.1 hz with rfl | hz
    · exact hy
    · exact hys z hz

theorem agrees_mono {α : Type} {m : DM σ α} {m' : DM τ α} {P Q : α → Prop} (h : Concur I J m m' P) (hq : ∀ a, P a → Q a) : Concur I J m m' Q :=
  fun s t hs ht => ⟨(h s t hs ht).1, (h s t hs ht).2.1, (h s t hs ht).2.2.1, fun a e => hq a ((h s t hs ht).2.2.2 a e)⟩

variable {loc : Locator σ} {loc' : Locator τ} {D : Nat → Nat → Prop}

/-- Both parsers deliver the same for these references, and it refers to such objects only. -/
def Alike (I : σ → Prop) (J : τ → Prop) (loc : Locator σ) (loc' : Locator τ) (D : Nat → Nat → Prop) : Prop := ∀ n g, D n g → Concur I J (loc n g) (loc' n g) (RefsIn D)

theorem delivers_alike {store : Store} (h : Delivers loc I store) (h' : Delivers loc' J store) (hn : NoDangling store) :
    Alike I J loc loc' fun n g => store n g ≠ none := by
  intro n g hg s t hs ht
  obtain ⟨o, ho⟩ : ∃ o, store n g = some o := by
    cases h : store n g with
    | none => exact absurd h hg
    | some o => exact ⟨o, rfl⟩
  obtain ⟨e, i⟩ := h n g o s hs ho
  obtain ⟨e', j⟩ := h' n g o t ht ho
  refine ⟨e.trans e'.symm, i, j, fun a ea => ?_⟩
  rw [e] at ea
  cases ea
  exact hn n g o ho

theorem dictGet_refs {es : List (Bytes × Obj)} (h : ∀ e ∈ es, RefsIn D e.2) {k : Bytes} {o : Obj} (e : dictGet es k = some o) : RefsIn D o := by
  induction es with
  | nil => cases e
  | cons x es ih =>
    unfold dictGet at e
    split at e
    · cases e; exact h x (by simp)
    · exact ih (fun y hy => h y (by simp [hy])) e

theorem build_agrees (hl : Alike I J loc loc' D) : ∀ fuel,
    (∀ o, RefsIn D o → Concur I J (factory loc fuel o) (factory loc' fuel o) (RefsInV D)) ∧
    (∀ visited o, RefsIn D o → Concur I J (build loc fuel visited o) (build loc' fuel visited o) (RefsInV D)) ∧
    (∀ visited v, RefsInV D v → Concur I J (rebuild loc fuel visited v) (rebuild loc' fuel visited v) (RefsInV D)) := by
  intro fuel
  induction fuel with
  | zero => exact ⟨fun o _ => agrees_error, fun _ o _ => agrees_error, fun _ o _ => agrees_error⟩
  | succ fuel ih =>
    obtain ⟨ih1, ih2, ih3⟩ := ih
    have hf : ∀ o, RefsIn D o → Concur I J (factory loc (fuel + 1) o) (factory loc' (fuel + 1) o) (RefsInV D) := by
      intro o ho
      unfold factory
      cases o with
      | arr xs => exact agrees_bind (agrees_mapM xs fun x hx => ih2 [] x (refsIn_arr ho x hx)) fun vs hvs => agrees_ok (.arr vs hvs)
      | dict es =>
        refine agrees_pure fun a e => ?_
        cases hc : dictClass es with
        | error e' => rw [hc] at e; cases e
        | ok c => rw [hc] at e; cases e; exact .dict c es (refsIn_dict ho)
      | stream es data =>
        refine agrees_pure fun a e => ?_
        cases hc : streamClass es with
        | error e' => rw [hc] at e; cases e
        | ok c => rw [hc] at e; cases e; exact .stream c es data (refsIn_stream ho)
      | _ => exact agrees_ok (.atom _ ho)
    refine ⟨hf, fun visited o ho => ?_, fun visited v hv => ?_⟩
    · unfold build
      cases o with
      | ref n g =>
        dsimp only
        by_cases hm : (n, g) ∈ visited
        · rw [if_pos hm, if_pos hm]
          exact agrees_ok (.atom _ ho)
        · rw [if_neg hm, if_neg hm]
          refine agrees_bind (hl n g (refsIn_ref ho)) fun x hx => agrees_bind (ih1 x hx) fun v hv => ?_
          cases hv with
          | arr vs hvs => exact agrees_bind (agrees_mapM vs fun v hv => ih3 _ v (hvs v hv)) fun vs hvs => agrees_ok (.arr vs hvs)
          | atom o h => exact agrees_ok (.atom o h)
          | dict c es h => exact agrees_ok (.dict c es h)
          | stream c es data h => exact agrees_ok (.stream c es data h)
      | arr xs => exact agrees_bind (agrees_mapM xs fun x hx => ih2 visited x (refsIn_arr ho x hx)) fun vs hvs => agrees_ok (.arr vs hvs)
      | _ => exact ih1 _ ho
    · unfold rebuild
      cases hv with
      | arr vs hvs => exact agrees_bind (agrees_mapM vs fun v hv => ih3 _ v (hvs v hv)) fun vs hvs => agrees_ok (.arr vs hvs)
      | atom o h => exact ih2 visited o h
      | dict c es h => exact agrees_ok (.dict c es h)
      | stream c es data h => exact agrees_ok (.stream c es data h)

theorem null_refs : RefsInV D (.atom .null) := .atom _ (.atom _ trivial)

theorem entry_agrees (hl : Alike I J loc loc' D) (fuel : Nat) {es : List (Bytes × Obj)} (h : ∀ e ∈ es, RefsIn D e.2) (k : Bytes) :
    Concur I J (entry loc fuel es k) (entry loc' fuel es k) (RefsInV D) := by
  unfold entry
  cases hk : dictGet es k with
  | none => exact agrees_ok null_refs
  | some o =>
    intro s t hs ht
    obtain ⟨e, i, j, p⟩ := (build_agrees hl fuel).2.1 [] o (dictGet_refs h hk) s t hs ht
    dsimp only
    generalize build loc fuel [] o s = r at e i p
    generalize build loc' fuel [] o t = r' at e j
    obtain ⟨r1, r2⟩ := r
    obtain ⟨r1', r2'⟩ := r'
    cases e
    cases r1 with
    | ok a => exact ⟨rfl, i, j, p⟩
    | error e => cases e <;> first | exact ⟨rfl, i, j, p⟩ | exact ⟨rfl, i, j, fun a e => by cases e; exact null_refs⟩

theorem attr_agrees (hl : Alike I J loc loc' D) (fuel : Nat) {v : Val} (h : RefsInV D v) (k : Bytes) :
    Concur I J (attr loc fuel v k) (attr loc' fuel v k) (RefsInV D) := by
  unfold attr
  cases h with
  | dict c es h => exact entry_agrees hl fuel h k
  | stream c d data h =>
    dsimp only
    cases hk : dictGet d k with
    | none => exact agrees_ok null_refs
    | some o => exact (build_agrees hl fuel).2.1 [] o (dictGet_refs h hk)
  | atom o h => exact agrees_error
  | arr vs h => exact agrees_error

theorem item_agrees (hl : Alike I J loc loc' D) (fuel : Nat) {v : Val} (h : RefsInV D v) (k : Bytes) :
    Concur I J (item loc fuel v k) (item loc' fuel v k) (RefsInV D) := by
  unfold item
  cases h with
  | dict c es h =>
    dsimp only
    cases hk : dictGet es k with
    | none => exact agrees_error
    | some o => exact (build_agrees hl fuel).2.1 [] o (dictGet_refs h hk)
  | stream c d data h =>
    dsimp only
    cases hk : dictGet d k with
    | none => exact agrees_error
    | some o => exact agrees_ok (.atom _ (dictGet_refs h hk))
  | atom o h => exact agrees_error
  | arr vs h => exact agrees_error

theorem atIndex_agrees {v : Val} (h : RefsInV D v) (i : Nat) : Concur I J (atIndex v i) (atIndex v i) (RefsInV D) := by
  unfold atIndex
  cases h with
  | dict c es h => exact agrees_error
  | stream c d data h => exact agrees_error
  | atom o h => exact agrees_error
  | arr vs h =>
    dsimp only
    cases hk : vs[i]? with
    | none => exact agrees_error
    | some o => exact agrees_ok (h _ (List.mem_of_getElem? hk))

theorem walk_agrees (hl : Alike I J loc loc' D) (fuel : Nat) : ∀ (p : List Access) {v : Val}, RefsInV D v → Concur I J (walk loc fuel v p) (walk loc' fuel v p) (RefsInV D)
  | [], _, h => agrees_ok h
  | a :: p, v, h => by
    unfold walk
    refine agrees_bind (P := RefsInV D) ?_ fun w hw => walk_agrees hl fuel p hw
    cases a with
    | attr k => exact attr_agrees hl fuel h k
    | key k => exact item_agrees hl fuel h k
    | index i => exact atIndex_agrees h i

/-! ### Pages -/

/-- The same for generators. -/
def GenAgrees {α : Type} (I : σ → Prop) (J : τ → Prop) (g : Gen σ α) (g' : Gen τ α) (Q : α → Prop) : Prop :=
  ∀ s t, I s → J t → (g s).1 = (g' t).1 ∧ (g s).2.1 = (g' t).2.1 ∧ I (g s).2.2 ∧ J (g' t).2.2 ∧ ∀ a ∈ (g s).1, Q a

theorem forEach_agrees {α β : Type} {f : β → Gen σ α} {f' : β → Gen τ α} {Q : α → Prop} : ∀ xs : List β, (∀ x ∈ xs, GenAgrees I J (f x) (f' x) Q) →
    GenAgrees I J (Gen.forEach f xs) (Gen.forEach f' xs) Q
  | [], _ => fun s t hs ht => ⟨rfl, rfl, hs, ht, by intro a h; cases h⟩
  | x :: xs, h => by
    intro s t hs ht
    obtain ⟨e1, e2, i, j, p⟩ := h x (by simp) s t hs ht
    unfold Gen.forEach Gen.seq
    generalize f x s = r at e1 e2 i p
    generalize f' x t = r' at e1 e2 j
    obtain ⟨xs1, ex, s1⟩ := r
    obtain ⟨xs1', ex', t1⟩ := r'
    cases e1
    cases e2
    cases ex with
    | some e => exact ⟨rfl, rfl, i, j, p⟩
    | none =>
      obtain ⟨e1, e2, i, j, p'⟩ := forEach_agrees xs (fun y hy => h y (by simp [hy])) s1 t1 i j
      dsimp only
      generalize Gen.forEach f xs s1 = r at e1 e2 i p'
      generalize Gen.forEach f' xs t1 = r' at e1 e2 j
      obtain ⟨ys, ey, s2⟩ := r
      obtain ⟨ys', ey', t2⟩ := r'
      cases e1
      cases e2
      refine ⟨rfl, rfl, i, j, fun a ha => ?_⟩
      rcases List.mem_append.1 ha with ha | ha
      · exact p a ha
      · exact p' a ha

theorem kids_refs {v : Val} (hv : RefsInV D v) {kids : List Val} (hk : kidsOf v = .ok kids) : ∀ x ∈ kids, RefsInV D x := by
  have key : ∀ (c : Prop) [Decidable c] (e : Exc), (if c then Except.ok [] else .error e : Res (List Val)) = .ok kids → ∀ x ∈ kids, RefsInV D x := by
    intro c _ e hk x hx
    split at hk
    · cases hk; cases hx
    · cases hk
  unfold kidsOf at hk
  cases v with
  | arr vs =>
    cases hk
    cases hv with
    | arr _ h => exact h
  | dict c es => exact key _ _ hk
  | stream c d data => cases hk
  | atom o => cases o <;> first | exact key _ _ hk | cases hk

theorem pages_agree (hl : Alike I J loc loc' D) {root : Val} (hr : RefsInV D root) : ∀ (fuel : Nat) {node : Val}, RefsInV D node →
    GenAgrees I J (pages loc root fuel node) (pages loc' root fuel node) (RefsInV D)
  | 0, _, _ => fun s t hs ht => ⟨rfl, rfl, hs, ht, by intro a h; cases h⟩
  | fuel + 1, node, h => by
    intro s t hs ht
    have hn : RefsInV D (orSelf root node) := by
      unfold orSelf
      split
      · exact hr
      · exact h
    obtain ⟨e, i, j, p⟩ := attr_agrees hl fuel hn b!"Kids" s t hs ht
    unfold pages
    generalize attr loc fuel (orSelf root node) b!"Kids" s = r at e i p
    generalize attr loc' fuel (orSelf root node) b!"Kids" t = r' at e j
    obtain ⟨r1, s1⟩ := r
    obtain ⟨r1', t1⟩ := r'
    cases e
    cases r1 with
    | error e => exact ⟨rfl, rfl, i, j, by intro a h; cases h⟩
    | ok v =>
      have hv := p v rfl
      dsimp only
      cases hk : kidsOf v with
      | error e => exact ⟨rfl, rfl, i, j, by intro a h; cases h⟩
      | ok kids =>
        have hkids : ∀ x ∈ kids, RefsInV D x := kids_refs hv hk
        refine forEach_agrees kids (fun child hc => ?_) s1 t1 i j
        by_cases hp : isPage child = true
        · rw [if_pos hp, if_pos hp]
          exact fun s t hs ht => ⟨rfl, rfl, hs, ht, fun a ha => by cases List.mem_singleton.1 ha; exact hkids _ hc⟩
        · rw [if_neg hp, if_neg hp]
          exact pages_agree hl hr fuel (hkids child hc)

theorem docPages_agree (hl : Alike I J loc loc' D) (fuel : Nat) {root : Val} (h : RefsInV D root) :
    GenAgrees I J (docPages loc fuel root) (docPages loc' fuel root) (RefsInV D) := by
  intro s t hs ht
  obtain ⟨e, i, j, p⟩ := attr_agrees hl fuel h b!"Pages" s t hs ht
  unfold docPages
  generalize attr loc fuel root b!"Pages" s = r at e i p
  generalize attr loc' fuel root b!"Pages" t = r' at e j
  obtain ⟨r1, s1⟩ := r
  obtain ⟨r1', t1⟩ := r'
  cases e
  cases r1 with
  | error e => exact ⟨rfl, rfl, i, j, by intro a h; cases h⟩
  | ok v =>
    have hv := p v rfl
    cases v with
    | atom o => exact ⟨rfl, rfl, i, j, by intro a h; cases h⟩
    | arr vs => exact ⟨rfl, rfl, i, j, by intro a h; cases h⟩
    | stream c d data => exact ⟨rfl, rfl, i, j, by intro a h; cases h⟩
    | dict c es =>
      cases c with
      | none => exact ⟨rfl, rfl, i, j, by intro a h; cases h⟩
      | some c =>
        dsimp only
        by_cases hc : c = b!"Pages"
        · rw [if_pos hc, if_pos hc]
          exact pages_agree hl hv fuel hv s1 t1 i j
        · rw [if_neg hc, if_neg hc]
          exact ⟨rfl, rfl, i, j, by intro a h; cases h⟩

/-! ### Resources -/

/-- The references in the values of resources. -/
def RefsInR (D : Nat → Nat → Prop) (kw : List (Bytes × Category)) : Prop := ∀ e ∈ kw, ∀ es, e.2 = .named es → ∀ x ∈ es, RefsInV D x.2

theorem assoc_isMem {α β : Type} [DecidableEq α] {k : α} {v : β} : ∀ {es : List (α × β)}, assoc k es = some v → (k, v) ∈ es
  | [], h => by cases h
  | (k', v') :: es, h => by
    unfold assoc at h
    split at h
    · rename_i hk
      cases h
      cases hk
      exact List.mem_cons_self
    · exact List.mem_cons_of_mem _ (assoc_isMem h)

theorem set_mem_or {α β : Type} [DecidableEq α] {k : α} {v : β} {x : α × β} : ∀ {es : List (α × β)}, x ∈ assocSet k v es → x = (k, v) ∨ x ∈ es
  | [], h => .inl (List.mem_singleton.1 h)
  | (k', v') :: es, h => by
    unfold assocSet at h
    split at h
    · rcases List.mem_cons.1 h with h | h
      · exact .inl h
      · exact .inr (List.mem_cons_of_mem _ h)
    · rcases List.mem_cons.1 h with h | h
      · exact .inr (h ▸ List.mem_cons_self)
      · exact (set_mem_or h).imp_right (List.mem_cons_of_mem _)

theorem foldl_refs : ∀ (items : List (Bytes × Val)) (acc : List (Bytes × Val)), (∀ e ∈ items, RefsInV D e.2) → (∀ e ∈ acc, RefsInV D e.2) →
    ∀ e ∈ items.foldl (fun acc e => assocSet e.1 e.2 acc) acc, RefsInV D e.2
  | [], _, _, h => h
  | x :: xs, acc, h1, h2 => by
    refine foldl_refs xs _ (fun e he => h1 e (by simp [he])) fun e he => ?_
    rcases set_mem_or he with rfl | he
    · exact h1 x (by simp)
    · exact h2 e he

theorem refsInR_set {kw : List (Bytes × Category)} (h : RefsInR D kw) (name : Bytes) {c : Category} (hc : ∀ es, c = .named es → ∀ x ∈ es, RefsInV D x.2) :
    RefsInR D (assocSet name c kw) := by
  intro e he es e1
  rcases set_mem_or he with rfl | he
  · exact hc es e1
  · exact h e he es e1

theorem items_agree (hl : Alike I J loc loc' D) (fuel : Nat) {es : List (Bytes × Obj)} (h : ∀ e ∈ es, RefsIn D e.2) :
    Concur I J (itemsOf loc fuel es) (itemsOf loc' fuel es) fun items => ∀ e ∈ items, RefsInV D e.2 :=
  agrees_mapM (Q := fun (e : Bytes × Val) => RefsInV D e.2) es fun e he => agrees_bind ((build_agrees hl fuel).2.1 [] e.2 (h e he)) fun _ hv => agrees_ok hv

theorem mergeEntry_agrees (hl : Alike I J loc loc' D) (fuel : Nat) {kw : List (Bytes × Category)} (hkw : RefsInR D kw) (name : Bytes) {v : Val} (h : RefsInV D v) :
    Concur I J (mergeEntry loc fuel kw name v) (mergeEntry loc' fuel kw name v) (RefsInR D) := by
  unfold mergeEntry
  by_cases ht : truthyVal v = false
  · rw [if_pos ht, if_pos ht]
    exact agrees_ok hkw
  · rw [if_neg ht, if_neg ht]
    cases h with
    | atom o h => exact agrees_ok hkw
    | stream c d data h => exact agrees_ok hkw
    | dict c es h =>
      refine agrees_bind (items_agree hl fuel h) fun items hi => ?_
      cases ha : assoc name kw with
      | none => exact agrees_ok (refsInR_set hkw name fun es e => by cases e; exact foldl_refs items [] hi (by simp))
      | some c =>
        cases c with
        | procs ns => exact agrees_error
        | named old => exact agrees_ok (refsInR_set hkw name fun es e => by cases e; exact foldl_refs items old hi (hkw _ (assoc_isMem ha) old rfl))
    | arr vs h =>
      have : ∀ ns0 a, ((addProcs ns0 vs).map fun ns => assocSet name (.procs ns) kw) = .ok a → RefsInR D a := by
        intro ns0 a e
        cases hp : addProcs ns0 vs with
        | error x => rw [hp] at e; cases e
        | ok ns => rw [hp] at e; cases e; exact refsInR_set hkw name fun es e => by cases e
      dsimp only
      cases ha : assoc name kw with
      | none => exact agrees_pure (this _)
      | some c =>
        cases c with
        | procs ns => exact agrees_pure (this _)
        | named old => exact agrees_error

theorem mergeEntries_agree (hl : Alike I J loc loc' D) (fuel : Nat) : ∀ (es : List (Bytes × Val)) {kw : List (Bytes × Category)}, (∀ e ∈ es, RefsInV D e.2) →
    RefsInR D kw → Concur I J (mergeEntries loc fuel es kw) (mergeEntries loc' fuel es kw) (RefsInR D)
  | [], _, _, h => agrees_ok h
  | (k, v) :: es, kw, h1, h2 => by
    unfold mergeEntries
    exact agrees_bind (mergeEntry_agrees hl fuel h2 k (h1 (k, v) (by simp))) fun kw h => mergeEntries_agree hl fuel es (fun e he => h1 e (by simp [he])) h

theorem mergeAll_agree (hl : Alike I J loc loc' D) (fuel : Nat) : ∀ (rs : List Val) {kw : List (Bytes × Category)}, (∀ r ∈ rs, RefsInV D r) →
    RefsInR D kw → Concur I J (mergeAll loc fuel rs kw) (mergeAll loc' fuel rs kw) (RefsInR D)
  | [], _, _, h => by unfold mergeAll; exact agrees_ok h
  | r :: rs, kw, h1, h2 => by
    have hr := h1 r (by simp)
    cases hr with
    | dict c es h =>
      unfold mergeAll
      exact agrees_bind (items_agree hl fuel h) fun items hi => agrees_bind (mergeEntries_agree hl fuel items hi h2) fun kw h =>
        mergeAll_agree hl fuel rs (fun r hr => h1 r (by simp [hr])) h
    | stream c d data h => unfold mergeAll; exact agrees_error
    | atom o h => unfold mergeAll; exact agrees_error
    | arr vs h => unfold mergeAll; exact agrees_error

theorem resourceStack_agrees (hl : Alike I J loc loc' D) : ∀ (fuel : Nat) {node : Val} {stack : List Val}, RefsInV D node → (∀ r ∈ stack, RefsInV D r) →
    Concur I J (resourceStack loc fuel node stack) (resourceStack loc' fuel node stack) fun rs => ∀ r ∈ rs, RefsInV D r
  | 0, _, _, _, _ => agrees_error
  | fuel + 1, node, stack, h1, h2 => by
    unfold resourceStack
    refine agrees_bind (attr_agrees hl fuel h1 b!"Resources") fun r hr => ?_
    have hs : ∀ x ∈ (if truthyVal r then stack ++ [r] else stack), RefsInV D x := by
      intro x hx
      split at hx
      · rcases List.mem_append.1 hx with hx | hx
        · exact h2 x hx
        · cases List.mem_singleton.1 hx; exact hr
      · exact h2 x hx
    dsimp only
    refine agrees_bind (attr_agrees hl fuel h1 b!"Parent") fun p hp => ?_
    by_cases ht : truthyVal p = true
    · rw [if_pos ht, if_pos ht]
      exact resourceStack_agrees hl fuel hp hs
    · rw [if_neg ht, if_neg ht]
      exact agrees_ok hs

theorem fromPage_agrees (hl : Alike I J loc loc' D) (fuel : Nat) {page : Val} {own : List Val} (h1 : RefsInV D page) (h2 : ∀ r ∈ own, RefsInV D r) :
    Concur I J (fromPage loc fuel page own) (fromPage loc' fuel page own) (RefsInR D) := by
  unfold fromPage
  exact agrees_bind (resourceStack_agrees hl fuel h1 h2) fun stack hs =>
    mergeAll_agree hl fuel stack.reverse (fun r hr => hs r (List.mem_reverse.1 hr)) (fun e he => by cases he)

/-! ### What the viewer asks for -/

variable (filtered : List (Bytes × Obj) → Bytes → Res Bytes) (builtin : Builtin) (predefined : Bytes → Option CMap)

theorem agrees_any {α : Type} {m : DM σ α} {m' : DM τ α} {P : α → Prop} (h : Concur I J m m' P) : Concur I J m m' fun _ => True := agrees_mono h fun _ _ => trivial

theorem fontEncoding_agrees (hl : Alike I J loc loc' D) (fuel : Nat) {v : Val} (h : RefsInV D v) :
    Concur I J (fontEncoding loc fuel v) (fontEncoding loc' fuel v) fun _ => True := by
  cases h with
  | atom o h =>
    unfold fontEncoding
    cases o <;> exact agrees_ok trivial
  | arr vs h => exact agrees_ok trivial
  | stream c d data h => exact agrees_ok trivial
  | dict c es h =>
    cases es with
    | nil => exact agrees_ok trivial
    | cons e es =>
      exact agrees_bind (entry_agrees hl fuel h _) fun b _ => agrees_bind (entry_agrees hl fuel h _) fun d _ => agrees_ok trivial

theorem fontDict_agrees (hl : Alike I J loc loc' D) (fuel : Nat) {v : Val} (h : RefsInV D v) :
    Concur I J (fontDict filtered loc fuel v) (fontDict filtered loc' fuel v) fun _ => True := by
  unfold fontDict
  cases h with
  | dict c es h =>
    exact agrees_bind (entry_agrees hl fuel h _) fun u _ => agrees_bind (entry_agrees hl fuel h _) fun e he => agrees_bind (agrees_pure (Q := fun _ => True) fun _ _ => trivial) fun t _ =>
      agrees_bind (fontEncoding_agrees hl fuel he) fun enc _ => agrees_bind (entry_agrees hl fuel h _) fun b _ => agrees_ok trivial
  | atom o h => exact agrees_error
  | arr vs h => exact agrees_error
  | stream c d data h => exact agrees_error

theorem formStack_agrees (hl : Alike I J loc loc' D) (fuel : Nat) {page x : Val} (hp : RefsInV D page) (hx : RefsInV D x) :
    Concur I J (formStack loc fuel page x) (formStack loc' fuel page x) (RefsInR D) := by
  unfold formStack
  refine agrees_bind (attr_agrees hl fuel hx _) fun r hr => fromPage_agrees hl fuel hp ?_
  intro y hy
  split at hy
  · cases List.mem_singleton.1 hy; exact hr
  · cases hy

/-- Two documents answer a page alike. -/
structure HostsAgree (D : Nat → Nat → Prop) (h h' : Host) : Prop where
  decode : ∀ v, RefsInV D v → ∀ o, h.decode v o = h'.decode v o
  items : ∀ es, (∀ e ∈ es, RefsIn D e.2) → h.items es = h'.items es
  data : h.data = h'.data
  forms : ∀ v, RefsInV D v → h.formResources v = h'.formResources v
  formsIn : ∀ v, RefsInV D v → ∀ r, h.formResources v = .ok r → RefsInR D r

theorem hosts_agree (hl : Alike I J loc loc' D) (fuel : Nat) {page : Val} (hp : RefsInV D page) {s : σ} {t : τ} (hs : I s) (ht : J t) :
    HostsAgree D (hostAt filtered builtin predefined loc fuel page s) (hostAt filtered builtin predefined loc' fuel page t) where
  decode v hv o := by
    unfold hostAt
    dsimp only
    rw [(fontDict_agrees filtered hl fuel hv s t hs ht).1]
  items es hes := (items_agree hl fuel hes s t hs ht).1
  data := rfl
  forms v hv := (formStack_agrees hl fuel hp hv s t hs ht).1
  formsIn v hv := (formStack_agrees hl fuel hp hv s t hs ht).2.2.2

/-- Two pages alike. -/
structure PagesAlike (D : Nat → Nat → Prop) (pg pg' : PageInfo) : Prop where
  host : HostsAgree D pg.host pg'.host
  resources : pg.resources = pg'.resources
  resourcesIn : ∀ r, pg.resources = .ok r → RefsInR D r
  contents : pg.contents = pg'.contents

theorem pageInfo_alike (hl : Alike I J loc loc' D) (fuel : Nat) {page : Val} (hp : RefsInV D page) {s : σ} {t : τ} (hs : I s) (ht : J t) :
    PagesAlike D (pageInfo filtered builtin predefined loc fuel s page) (pageInfo filtered builtin predefined loc' fuel t page) where
  host := hosts_agree filtered builtin predefined hl fuel hp hs ht
  resources := (fromPage_agrees hl fuel hp (by simp) s t hs ht).1
  resourcesIn := (fromPage_agrees hl fuel hp (by simp) s t hs ht).2.2.2
  contents := (attr_agrees hl fuel hp b!"Contents" s t hs ht).1
end

end PdfReader
