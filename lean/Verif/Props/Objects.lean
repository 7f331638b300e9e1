/-
  C46 (page trees), C48 (inherited resources), C75 (references are transparent), C76 (cyclic references), C77 (classes of XObjects).
-/
import Verif.Lemmas.Objects
import Verif.Lemmas.Resolve
import Verif.Props.Locate

namespace PdfReader

open Spec

variable {σ : Type} {I : σ → Prop} {loc : Locator σ}

/-! ### C75: references are transparent -/

/-- C75: reading an entry of a dictionary of the document delivers the value behind it, with references at any depth of arrays replaced
by the objects they refer to. -/
theorem C75_entries {store : Store} (hd : Delivers loc I store) (c : Option Bytes) (es : List (Bytes × Obj)) (k : Bytes) (v : Val)
    (h : EntryIs store es k v) : ∃ F, ∀ fuel, F ≤ fuel → Gives I (attr loc fuel (.dict c es) k) v :=
  entry_reads hd h

/-- C75: whether an entry holds the object itself or a reference to it makes no difference. -/
theorem C75_transparent {store : Store} (hd : Delivers loc I store) (c c' : Option Bytes) (es es' : List (Bytes × Obj)) (k : Bytes) (n g : Nat)
    (o : Obj) (v : Val) (h1 : dictGet es k = some o) (h2 : dictGet es' k = some (.ref n g)) (hs : store n g = some o) (ho : ∀ n g, o ≠ .ref n g)
    (hv : Reads store o v) :
    ∃ F, ∀ fuel, F ≤ fuel → Gives I (attr loc fuel (.dict c es) k) v ∧ Gives I (attr loc fuel (.dict c' es') k) v :=
  Ev.and (entry_reads hd ⟨o, h1, hv⟩) (entry_reads hd ⟨_, h2, .ref n g o v hs ho hv⟩)

/-- An entry which is missing reads as None. -/
theorem C75_missing (c : Option Bytes) (es : List (Bytes × Obj)) (k : Bytes) (h : NoEntry es k) :
    ∃ F, ∀ fuel, F ≤ fuel → Gives I (attr loc fuel (.dict c es) k) (.atom .null) :=
  entry_none h

/-- The objects of the file which the cross-reference sections list. -/
def Listed (env : Env) (store : Store) : Prop :=
  ∀ n g o, store n g = some o → ∃ newer x older off t rest, env.xrefs = newer ++ x :: older ∧
    (∀ y ∈ newer, ¬ ∃ e, natGet y.inUse n = some e ∧ e.gen = g) ∧ natGet x.inUse n = some ⟨off, g⟩ ∧ IndText n g o t ∧
    env.file.drop off = t ++ rest ∧ env.dec n g o = .ok o ∧ isObjStm o = false

/-- The registry does not contradict the file. -/
def Sound (store : Store) (s : St) : Prop := ∀ n g o, store n g = some o → regGet s.reg (n, g) = none ∨ regGet s.reg (n, g) = some o

theorem locate_again (env : Env) (pre post : List XRef) (x : XRef) (n g : Nat) (e : XEntry) (o w : Obj) (t rest : Bytes) (s : St)
    (hx : env.xrefs = pre ++ x :: post) (hpre : ∀ y ∈ pre, ¬ Lists y n g) (he : natGet x.inUse n = some e) (hg : e.gen = g)
    (ht : IndText n g o t) (hd : env.file.drop e.offset = t ++ rest) (hdec : env.dec n g o = .ok w) (hw : isObjStm w = false)
    (hold : regGet s.reg (n, g) = some w) (fuel : Nat) (hfuel : pre.length + 4 ≤ fuel) :
    locate env fuel n g s = (.ok w, s) := by
  obtain ⟨f, rfl⟩ : ∃ f, fuel = (f + 3 + pre.length) + 1 := ⟨fuel - 4 - pre.length, by omega⟩
  rw [locate, hold]
  dsimp only
  by_cases htr : truthy w = true
  · rw [if_pos htr]
  · rw [if_neg htr, hx, byXref_skip _ _ _ _ _ _ _ hpre, byXref, he]
    dsimp only
    have hn : s.note (n, g) w = s := by unfold St.note; rw [hold]
    rw [if_pos hg, objectAt_text env f e.offset n g o w t rest s ht hd hdec hw]
    dsimp only
    rw [hn, hold]
    dsimp only
    rw [show f + 3 + pre.length = (f + 2 + pre.length) + 1 by omega, bruteForce, hold]

/-- The parser delivers what a file lists, whatever was resolved before. -/
theorem listed_delivers (env : Env) (store : Store) (h : Listed env store) (fuel : Nat) (hf : env.xrefs.length + 4 ≤ fuel) :
    Delivers (locate env fuel) (Sound store) store := by
  intro n g o s hs ho
  obtain ⟨newer, x, older, off, t, rest, h1, h2, h3, h4, h5, h6, h7⟩ := h n g o ho
  have hfuel : newer.length + 4 ≤ fuel := by
    rw [h1, List.length_append] at hf
    omega
  rcases hs n g o ho with hn | hn
  · rw [locate_listed env newer older x n g ⟨off, g⟩ o o t rest s h1 h2 h3 rfl h4 h5 h6 h7 hn fuel hfuel]
    refine ⟨rfl, ?_⟩
    intro n' g' o' ho'
    by_cases e : (n', g') = (n, g)
    · cases e
      rw [ho] at ho'
      cases ho'
      exact Or.inr (regGet_put _ _ _)
    · have : regGet (s.put (n, g) o).reg (n', g') = regGet s.reg (n', g') := by
        show regGet (((n, g), o) :: s.reg) (n', g') = _
        rw [regGet, if_neg (fun h => e h.symm)]
      rw [this]
      exact hs n' g' o' ho'
  · rw [locate_again env newer older x n g ⟨off, g⟩ o o t rest s h1 h2 h3 rfl h4 h5 h6 h7 hn fuel hfuel]
    exact ⟨rfl, hs⟩

/-! ### C46 -/

/-- The generator yields these items and ends. -/
def Yields {α : Type} (I : σ → Prop) (m : Gen σ α) (xs : List α) : Prop := ∀ s, I s → ∃ s', I s' ∧ m s = (xs, none, s')

theorem yields_seq {α : Type} {a b : Gen σ α} {xs ys : List α} (h1 : Yields I a xs) (h2 : Yields I b ys) : Yields I (Gen.seq a b) (xs ++ ys) := by
  intro s hs
  obtain ⟨s1, i1, e1⟩ := h1 s hs
  obtain ⟨s2, i2, e2⟩ := h2 s1 i1
  refine ⟨s2, i2, ?_⟩
  unfold Gen.seq
  rw [e1]
  dsimp only
  rw [e2]

/-- The body of the loop over the kids. -/
def child (loc : Locator σ) (root : Val) (fuel : Nat) (v : Val) : Gen σ Val :=
  if isPage v then fun s => ([v], none, s) else pages loc root fuel v

theorem pages_node (root : Val) {c : Option Bytes} {es : List (Bytes × Obj)} {vs : List Val} {ps : List Val}
    (h1 : Ev fun f => Gives I (attr loc f (.dict c es) b!"Kids") (.arr vs)) (h2 : Ev fun f => Yields I (Gen.forEach (child loc root f) vs) ps) :
    Ev fun f => Yields I (pages loc root f (.dict c es)) ps := by
  refine .succ ((h1.and h2).mono fun f hf s hs => ?_)
  obtain ⟨e, i⟩ := hf.1 s hs
  obtain ⟨s', i', e'⟩ := hf.2 _ i
  refine ⟨s', i', ?_⟩
  have e0 : orSelf root (.dict c es) = .dict c es := rfl
  unfold pages
  rw [e0]
  generalize attr loc f (.dict c es) b!"Kids" s = r at e e'
  obtain ⟨r1, r2⟩ := r
  cases e
  exact e'

/-- A page as the user gets it. -/
def asPage (es : List (Bytes × Obj)) : Val := .dict (some b!"Page") es

mutual
theorem tree_yields {store : Store} (hd : Delivers loc I store) : ∀ {n g : Nat} {ps : List (List (Bytes × Obj))}, PageTree store n g ps →
    ∃ v, Reads store (.ref n g) v ∧ ∀ root, Ev fun f => Yields I (child loc root f v) (ps.map asPage)
  | _, _, _, .page n g es h1 h2 =>
    ⟨asPage es, .ref n g _ _ h1 (by simp) (.dict es _ (.typed _ h2 (by decide))), fun _ => .all fun f s hs => ⟨s, hs, rfl⟩⟩
  | _, _, ps, .node n g es kids _ h1 h2 h3 h4 => by
    obtain ⟨vs, hv, hy⟩ := trees_yield hd h4
    refine ⟨.dict (some b!"Pages") es, .ref n g _ _ h1 (by simp) (.dict es _ (.typed _ h2 (by decide))), fun root => ?_⟩
    have hk : EntryIs store es b!"Kids" (.arr vs) := by
      cases h3 with
      | direct _ h => exact ⟨_, h, hv⟩
      | indirect a b _ h h' => exact ⟨_, h, .ref a b _ _ h' (by simp) hv⟩
    exact pages_node root (entry_reads hd hk) (hy root)
theorem trees_yield {store : Store} (hd : Delivers loc I store) : ∀ {kids : List (Nat × Nat)} {ps : List (List (Bytes × Obj))},
    PageTrees store kids ps → ∃ vs, Reads store (.arr (kids.map fun k => .ref k.1 k.2)) (.arr vs) ∧
      ∀ root, Ev fun f => Yields I (Gen.forEach (child loc root f) vs) (ps.map asPage)
  | _, _, .nil => ⟨[], .nil, fun _ => .all fun f s hs => ⟨s, hs, rfl⟩⟩
  | _, _, .cons n g kids ps qs h1 h2 => by
    obtain ⟨v, hv, hy⟩ := tree_yields hd h1
    obtain ⟨vs, hvs, hys⟩ := trees_yield hd h2
    refine ⟨v :: vs, .cons _ _ _ _ hv hvs, fun root => ?_⟩
    refine ((hy root).and (hys root)).mono fun f hf => ?_
    rw [List.map_append]
    exact yields_seq hf.1 hf.2
end

/-- C46: iterating over the pages of a document, whose catalog refers to a page tree, yields the pages of the tree from left to right, and
ends. -/
theorem C46_order {store : Store} (hd : Delivers loc I store) (c : Option Bytes) (catalog : List (Bytes × Obj)) (n g : Nat)
    (ps : List (List (Bytes × Obj))) (hc : dictGet catalog b!"Pages" = some (.ref n g)) (ht : PageTree store n g ps)
    (hn : ∀ es, store n g = some (.dict es) → dictGet es b!"Type" = some (.name b!"Pages")) :
    ∃ F, ∀ fuel, F ≤ fuel → ∀ s, I s → ∃ s', I s' ∧ docPages loc fuel (.dict c catalog) s = (ps.map asPage, none, s') := by
  cases ht with
  | page _ _ es h1 h2 =>
    have := hn es h1
    rw [h2] at this
    exact absurd this (by decide)
  | node _ _ es kids _ h1 h2 h3 h4 =>
    obtain ⟨vs, hv, hy⟩ := trees_yield hd h4
    have hk : EntryIs store es b!"Kids" (.arr vs) := by
      cases h3 with
      | direct _ h => exact ⟨_, h, hv⟩
      | indirect a b _ h h' => exact ⟨_, h, .ref a b _ _ h' (by simp) hv⟩
    have hr : EntryIs store catalog b!"Pages" (.dict (some b!"Pages") es) :=
      ⟨_, hc, .ref n g _ _ h1 (by simp) (.dict es _ (.typed _ h2 (by decide)))⟩
    refine ((entry_reads hd hr).and (pages_node (c := some b!"Pages") (.dict (some b!"Pages") es) (entry_reads hd hk) (hy _))).mono fun f hf s hs => ?_
    obtain ⟨e, i⟩ := hf.1 s hs
    obtain ⟨s', i', e'⟩ := hf.2 _ i
    refine ⟨s', i', ?_⟩
    unfold docPages
    have : attr loc f (.dict c catalog) b!"Pages" s = entry loc f catalog b!"Pages" s := rfl
    rw [this]
    generalize entry loc f catalog b!"Pages" s = r at e e'
    obtain ⟨r1, r2⟩ := r
    cases e
    dsimp only
    rw [if_pos rfl]
    exact e'

/-- C46, from the bytes of the file: the objects of the page tree are listed in the cross-reference sections. -/
theorem C46_file (env : Env) (store : Store) (h : Listed env store) (c : Option Bytes) (catalog : List (Bytes × Obj)) (n g : Nat)
    (ps : List (List (Bytes × Obj))) (hc : dictGet catalog b!"Pages" = some (.ref n g)) (ht : PageTree store n g ps)
    (hn : ∀ es, store n g = some (.dict es) → dictGet es b!"Type" = some (.name b!"Pages")) (s : St) (hs : Sound store s) :
    ∃ F, ∀ fuel, F ≤ fuel → (docPages (locate env (env.xrefs.length + 4)) fuel (.dict c catalog) s).1 = ps.map asPage ∧
      (docPages (locate env (env.xrefs.length + 4)) fuel (.dict c catalog) s).2.1 = none := by
  obtain ⟨F, hF⟩ := C46_order (listed_delivers env store h _ (Nat.le_refl _)) c catalog n g ps hc ht hn
  refine ⟨F, fun fuel hf => ?_⟩
  obtain ⟨s', _, e⟩ := hF fuel hf s hs
  rw [e]
  exact ⟨rfl, rfl⟩

/-! ### C48 -/

/-- The Resources of the nodes, with the nodes that have none left out. -/
inductive Layers (store : Store) : List Val → List (List (Bytes × Category)) → Prop
  | nil : Layers store [] []
  | skip (rs : List Val) (chain : List (List (Bytes × Category))) : Layers store rs chain → Layers store rs ([] :: chain)
  | cons (c : Option Bytes) (res : List (Bytes × Obj)) (cs : List (Bytes × Category)) (rs : List Val) (chain : List (List (Bytes × Category))) :
      CategoriesAre store res cs → (res.map (·.1)).Nodup → Layers store rs chain → Layers store (.dict c res :: rs) (cs :: chain)

theorem own_layer {store : Store} (hd : Delivers loc I store) {es : List (Bytes × Obj)} {own : List (Bytes × Category)} (h : OwnResources store es own) :
    ∃ r, (Ev fun f => Gives I (entry loc f es b!"Resources") r) ∧
      ∀ rs chain, Layers store rs chain → Layers store ((if truthyVal r then [r] else []) ++ rs) (own :: chain) := by
  cases h with
  | absent h => exact ⟨.atom .null, entry_none h, fun rs chain hl => .skip rs chain hl⟩
  | present c' res cs h1 h2 h3 =>
    refine ⟨.dict c' res, entry_reads hd h1, fun rs chain hl => ?_⟩
    cases res with
    | nil =>
      cases h2
      exact .skip rs chain hl
    | cons e res => exact .cons c' _ _ rs chain h2 h3 hl

theorem stack_step {c : Option Bytes} {es : List (Bytes × Obj)} {r p : Val} {rs : List Val}
    (h1 : Ev fun f => Gives I (entry loc f es b!"Resources") r) (h2 : Ev fun f => Gives I (entry loc f es b!"Parent") p)
    (h3 : ∀ acc, if truthyVal p then Ev fun f => Gives I (resourceStack loc f p acc) (acc ++ rs) else rs = []) (acc : List Val) :
    Ev fun f => Gives I (resourceStack loc f (.dict c es) acc) (acc ++ ((if truthyVal r then [r] else []) ++ rs)) := by
  have e : (if truthyVal r = true then acc ++ [r] else acc) = acc ++ if truthyVal r then [r] else [] := by
    cases truthyVal r <;> simp
  cases ht : truthyVal p with
  | false =>
    refine .succ ((h1.and h2).mono fun f hf => ?_)
    unfold resourceStack
    refine gives_bind hf.1 (gives_bind hf.2 ?_)
    have := h3 acc
    rw [ht, if_neg (by decide)] at this
    subst this
    rw [if_neg (by rw [ht]; decide), e, List.append_nil]
    exact gives_pure _
  | true =>
    have h4 := h3 (acc ++ if truthyVal r then [r] else [])
    rw [ht, if_pos rfl] at h4
    refine .succ (((h1.and h2).and h4).mono fun f hf => ?_)
    unfold resourceStack
    refine gives_bind hf.1.1 (gives_bind hf.1.2 ?_)
    rw [if_pos ht, e, ← List.append_assoc]
    exact hf.2

theorem stack_gives {store : Store} (hd : Delivers loc I store) {es : List (Bytes × Obj)} {chain : List (List (Bytes × Category))}
    (h : Ancestry store es chain) : ∃ rs, Layers store rs chain ∧
      ∀ c acc, Ev fun f => Gives I (resourceStack loc f (.dict c es) acc) (acc ++ rs) := by
  induction h with
  | top es own h1 h2 =>
    obtain ⟨r, hr, hl⟩ := own_layer (loc := loc) (I := I) hd h1
    exact ⟨_, hl [] [] .nil, fun c acc => stack_step hr (entry_none h2) (fun acc => rfl) acc⟩
  | child es own c ps rest h1 h2 h3 h4 ih =>
    obtain ⟨r, hr, hl⟩ := own_layer (loc := loc) (I := I) hd h1
    obtain ⟨rs, h5, h6⟩ := ih
    refine ⟨_, hl rs rest h5, fun c' acc => stack_step hr (entry_reads hd h2) (fun acc => ?_) acc⟩
    have ht : truthyVal (.dict c ps) = true := by
      cases ps with
      | nil => exact absurd rfl h3
      | cons => rfl
    rw [if_pos ht]
    exact h6 c acc

theorem items_gives {store : Store} (hd : Delivers loc I store) {es : List (Bytes × Obj)} {vs : List (Bytes × Val)} (h : ItemsAre store es vs) :
    Ev fun f => Gives I (itemsOf loc f es) vs := by
  induction h with
  | nil => exact .all fun f => gives_mapM_nil _
  | cons k o v es vs h1 h2 ih =>
    exact ((reads_build hd h1).1.and ih).mono fun f hf => gives_mapM_cons (gives_bind hf.1 (gives_pure _)) hf.2

theorem items_keys {store : Store} {es : List (Bytes × Obj)} {vs : List (Bytes × Val)} (h : ItemsAre store es vs) : vs.map (·.1) = es.map (·.1) := by
  induction h with
  | nil => rfl
  | cons k o v es vs h1 h2 ih => rw [List.map_cons, List.map_cons, ih]

theorem assoc_set {α β : Type} [DecidableEq α] (k k' : α) (v : β) : ∀ es : List (α × β),
    assoc k' (assocSet k v es) = if k = k' then some v else assoc k' es
  | [] => rfl
  | (a, b) :: es => by
    unfold assocSet
    by_cases h : a = k
    · subst h
      rw [if_pos rfl]
      unfold assoc
      dsimp only
      by_cases h : a = k'
      · rw [if_pos h, if_pos h]
      · rw [if_neg h, if_neg h, if_neg h]
    · rw [if_neg h]
      unfold assoc
      dsimp only
      rw [assoc_set k k' v es]
      by_cases h2 : a = k'
      · rw [if_pos h2, if_neg (by rintro rfl; exact h h2), if_pos h2]
      · rw [if_neg h2, if_neg h2]

theorem find_key_none {β : Type} {name : Bytes} : ∀ {vs : List (Bytes × β)}, name ∉ vs.map (·.1) → vs.find? (fun e => e.1 == name) = none
  | [], _ => rfl
  | e :: vs, h => by
    rw [List.map_cons, List.mem_cons, not_or] at h
    rw [List.find?_cons_of_neg (by simpa using fun he => h.1 he.symm), find_key_none h.2]

theorem assoc_fold (name : Bytes) : ∀ (vs old : List (Bytes × Val)), (vs.map (·.1)).Nodup →
    assoc name (vs.foldl (fun acc e => assocSet e.1 e.2 acc) old) = ((vs.find? (fun e => e.1 == name)).map (·.2)).or (assoc name old)
  | [], _, _ => rfl
  | e :: vs, old, h => by
    rw [List.map_cons, List.nodup_cons] at h
    rw [List.foldl_cons, assoc_fold name vs _ h.2, assoc_set]
    by_cases he : e.1 = name
    · rw [if_pos he, List.find?_cons_of_pos (by simpa using he), find_key_none (by rw [← he]; exact h.1)]
      rfl
    · rw [if_neg he, List.find?_cons_of_neg (by simpa using he)]

/-- The named resources of a category. -/
def ofCategory (c : Category) (name : Bytes) : Option Val :=
  match c with
  | .named vs => (vs.find? (fun e => e.1 == name)).map (·.2)
  | .procs _ => none

/-- A category is of the kind of its name. -/
def KindOf (isProcs : Bytes → Bool) (k : Bytes) (c : Category) : Prop :=
  match c with
  | .procs _ => isProcs k = true
  | .named _ => isProcs k = false

/-- Each category is of its kind. -/
def Kinds (isProcs : Bytes → Bool) (kw : List (Bytes × Category)) : Prop :=
  ∀ cat c, assoc cat kw = some c → KindOf isProcs cat c

theorem addProcs_names (old : List Bytes) : ∀ ns : List Bytes, addProcs old (ns.map fun n => .atom (.name n)) = .ok (old ++ ns)
  | [] => by rw [List.append_nil]; rfl
  | n :: ns => by
    rw [List.map_cons]
    unfold addProcs addProc
    dsimp only
    rw [addProcs_names _ ns, List.append_assoc]
    rfl

theorem resource_set (kw : List (Bytes × Category)) (k : Bytes) (c : Category) (cat name : Bytes) :
    resource (assocSet k c kw) cat name = if k = cat then (match c with | .named es => assoc name es | .procs _ => none) else resource kw cat name := by
  unfold resource
  rw [assoc_set]
  by_cases h : k = cat
  · rw [if_pos h, if_pos h]
    cases c <;> rfl
  · rw [if_neg h, if_neg h]

theorem kinds_set {isProcs : Bytes → Bool} {kw : List (Bytes × Category)} (h : Kinds isProcs kw) (k : Bytes) (c : Category)
    (hc : KindOf isProcs k c) : Kinds isProcs (assocSet k c kw) := by
  intro cat c' hc'
  rw [assoc_set] at hc'
  by_cases e : k = cat
  · rw [if_pos e] at hc'
    cases hc'
    subst e
    exact hc
  · rw [if_neg e] at hc'
    exact h cat c' hc'

/-- The procedure sets of a category. -/
def procsOf : Category → List Bytes
  | .procs ns => ns
  | .named _ => []

theorem procs_named {kw : List (Bytes × Category)} {k : Bytes} (h : procsIn kw k = []) (es : List (Bytes × Val)) (cat : Bytes) :
    procsIn (assocSet k (.named es) kw) cat = procsIn kw cat ++ if k = cat then [] else [] := by
  rw [ite_self, List.append_nil]
  by_cases e : k = cat
  · subst e
    rw [h]
    unfold procsIn
    rw [assoc_set, if_pos rfl]
  · unfold procsIn
    rw [assoc_set, if_neg e]

theorem procs_procs {kw : List (Bytes × Category)} {k : Bytes} {old : List Bytes} (h : procsIn kw k = old) (ns : List Bytes) (cat : Bytes) :
    procsIn (assocSet k (.procs (old ++ ns)) kw) cat = procsIn kw cat ++ if k = cat then ns else [] := by
  by_cases e : k = cat
  · subst e
    rw [h, if_pos rfl]
    unfold procsIn
    rw [assoc_set, if_pos rfl]
  · rw [if_neg e, List.append_nil]
    unfold procsIn
    rw [assoc_set, if_neg e]

theorem entry_merges {store : Store} (hd : Delivers loc I store) (isProcs : Bytes → Bool) (kw : List (Bytes × Category)) (hk : Kinds isProcs kw)
    (k : Bytes) (v : Val) (c : Category) (hv : CategoryIs store v c) (hc : KindOf isProcs k c) :
    ∃ kw', Kinds isProcs kw' ∧ (∀ cat name, resource kw' cat name = if k = cat then (ofCategory c name).or (resource kw cat name) else resource kw cat name) ∧
      (∀ cat, procsIn kw' cat = procsIn kw cat ++ if k = cat then procsOf c else []) ∧
      Ev fun f => Gives I (mergeEntry loc f kw k v) kw' := by
  cases hv with
  | named c es vs h1 h2 =>
    have h2' : (vs.map (·.1)).Nodup := by rw [items_keys h1]; exact h2
    unfold KindOf at hc
    dsimp only at hc
    by_cases he : es = []
    · subst he
      cases h1
      refine ⟨kw, hk, fun cat name => ?_, fun cat => ?_, .all fun f => ?_⟩
      · split <;> rfl
      · unfold procsOf
        dsimp only
        rw [ite_self, List.append_nil]
      · unfold mergeEntry
        exact gives_pure _
    · have ht : truthyVal (.dict c es) ≠ false := by
        cases es with
        | nil => exact absurd rfl he
        | cons => show true ≠ false; decide
      cases ha : assoc k kw with
      | none =>
        refine ⟨_, kinds_set hk k (.named (vs.foldl (fun acc e => assocSet e.1 e.2 acc) [])) hc, fun cat name => ?_, procs_named (by unfold procsIn; rw [ha]) _, (items_gives hd h1).mono fun f hf => ?_⟩
        · rw [resource_set]
          by_cases e : k = cat
          · rw [if_pos e, if_pos e]
            dsimp only
            rw [assoc_fold name vs [] h2']
            subst e
            unfold resource
            rw [ha]
            rfl
          · rw [if_neg e, if_neg e]
        · unfold mergeEntry
          rw [if_neg ht]
          refine gives_bind hf ?_
          rw [ha]
          exact gives_pure _
      | some o =>
        cases o with
        | procs ns => exact absurd ((show isProcs k = _ from hk k _ ha).symm.trans hc) (by decide)
        | named old =>
          refine ⟨_, kinds_set hk k (.named (vs.foldl (fun acc e => assocSet e.1 e.2 acc) old)) hc, fun cat name => ?_, procs_named (by unfold procsIn; rw [ha]) _, (items_gives hd h1).mono fun f hf => ?_⟩
          · rw [resource_set]
            by_cases e : k = cat
            · rw [if_pos e, if_pos e]
              dsimp only
              rw [assoc_fold name vs old h2']
              subst e
              unfold resource
              rw [ha]
              rfl
            · rw [if_neg e, if_neg e]
          · unfold mergeEntry
            rw [if_neg ht]
            refine gives_bind hf ?_
            rw [ha]
            exact gives_pure _
  | procs ns =>
    unfold KindOf at hc
    dsimp only at hc
    by_cases he : ns = []
    · subst he
      refine ⟨kw, hk, fun cat name => ?_, fun cat => ?_, .all fun f => ?_⟩
      · split <;> rfl
      · unfold procsOf
        dsimp only
        rw [ite_self, List.append_nil]
      · unfold mergeEntry
        exact gives_pure _
    · have ht : truthyVal (.arr (ns.map fun n => .atom (.name n))) ≠ false := by
        cases ns with
        | nil => exact absurd rfl he
        | cons => show true ≠ false; decide
      cases ha : assoc k kw with
      | none =>
        refine ⟨_, kinds_set hk k (.procs ([] ++ ns)) hc, fun cat name => ?_, procs_procs (by unfold procsIn; rw [ha]) _, .all fun f => ?_⟩
        · rw [resource_set]
          by_cases e : k = cat
          · rw [if_pos e, if_pos e]
            subst e
            unfold resource
            rw [ha]
            rfl
          · rw [if_neg e, if_neg e]
        · unfold mergeEntry
          rw [if_neg ht]
          dsimp only
          rw [ha]
          dsimp only
          rw [addProcs_names]
          exact gives_pure _
      | some o =>
        cases o with
        | named vs => exact absurd ((show isProcs k = _ from hk k _ ha).symm.trans hc) (by decide)
        | procs old =>
          refine ⟨_, kinds_set hk k (.procs (old ++ ns)) hc, fun cat name => ?_, procs_procs (by unfold procsIn; rw [ha]) _, .all fun f => ?_⟩
          · rw [resource_set]
            by_cases e : k = cat
            · rw [if_pos e, if_pos e]
              subst e
              unfold resource
              rw [ha]
              rfl
            · rw [if_neg e, if_neg e]
          · unfold mergeEntry
            rw [if_neg ht]
            dsimp only
            rw [ha]
            dsimp only
            rw [addProcs_names]
            exact gives_pure _

/-- Categories of kinds that agree with `isProcs`. -/
def KindsOf (isProcs : Bytes → Bool) (own : List (Bytes × Category)) : Prop :=
  ∀ e ∈ own, KindOf isProcs e.1 e.2

theorem definedIn_cons (k : Bytes) (c : Category) (cs : List (Bytes × Category)) (cat name : Bytes) :
    definedIn ((k, c) :: cs) cat name = if k = cat then ofCategory c name else definedIn cs cat name := by
  unfold definedIn
  by_cases h : k = cat
  · rw [if_pos h, List.find?_cons_of_pos (by simpa using h)]
    cases c <;> rfl
  · rw [if_neg h, List.find?_cons_of_neg (by simpa using h)]

theorem definedIn_none {cs : List (Bytes × Category)} {cat : Bytes} (h : cat ∉ cs.map (·.1)) (name : Bytes) : definedIn cs cat name = none := by
  unfold definedIn
  rw [find_key_none h]

theorem categories_keys {store : Store} {es : List (Bytes × Obj)} {cs : List (Bytes × Category)} (h : CategoriesAre store es cs) :
    cs.map (·.1) = es.map (·.1) := by
  induction h with
  | nil => rfl
  | cons k o v c es cs h1 h2 h3 ih => rw [List.map_cons, List.map_cons, ih]

/-- The procedure sets which one node defines in a category. -/
def procsDefined (own : List (Bytes × Category)) (cat : Bytes) : List Bytes := own.flatMap fun e => if e.1 = cat then procsOf e.2 else []

theorem categories_merge {store : Store} (hd : Delivers loc I store) (isProcs : Bytes → Bool) {es : List (Bytes × Obj)} {cs : List (Bytes × Category)}
    (h : CategoriesAre store es cs) : (es.map (·.1)).Nodup → KindsOf isProcs cs → ∃ items, (Ev fun f => Gives I (itemsOf loc f es) items) ∧
      ∀ kw, Kinds isProcs kw → ∃ kw', Kinds isProcs kw' ∧
        (∀ cat name, resource kw' cat name = (definedIn cs cat name).or (resource kw cat name)) ∧
        (∀ cat, procsIn kw' cat = procsIn kw cat ++ procsDefined cs cat) ∧ Ev fun f => Gives I (mergeEntries loc f items kw) kw' := by
  induction h with
  | nil =>
    intro _ _
    exact ⟨[], .all fun f => gives_mapM_nil _, fun kw hk => ⟨kw, hk, fun _ _ => rfl, fun _ => (List.append_nil _).symm, .all fun f => gives_pure _⟩⟩
  | cons k o v c es cs h1 h2 h3 ih =>
    intro hn hk
    rw [List.map_cons, List.nodup_cons] at hn
    obtain ⟨items, hi, hm⟩ := ih hn.2 (fun e he => hk e (List.mem_cons_of_mem _ he))
    refine ⟨(k, v) :: items, ?_, fun kw hkw => ?_⟩
    · exact ((reads_build hd h1).1.and hi).mono fun f hf => gives_mapM_cons (gives_bind hf.1 (gives_pure _)) hf.2
    · obtain ⟨kw1, hk1, hr1, hp1, hg1⟩ := entry_merges hd isProcs kw hkw k v c h2 (hk (k, c) List.mem_cons_self)
      obtain ⟨kw2, hk2, hr2, hp2, hg2⟩ := hm kw1 hk1
      refine ⟨kw2, hk2, fun cat name => ?_, fun cat => by rw [hp2, hp1, List.append_assoc]; rfl, (hg1.and hg2).mono fun f hf => ?_⟩
      · rw [hr2, hr1, definedIn_cons]
        by_cases e : k = cat
        · rw [if_pos e, if_pos e, definedIn_none (by rw [categories_keys h3, ← e]; exact hn.1)]
          rfl
        · rw [if_neg e, if_neg e]
      · unfold mergeEntries
        exact gives_bind hf.1 hf.2

theorem bind_assoc' {α β γ : Type} (m : DM σ α) (f : α → DM σ β) (g : β → DM σ γ) : (m.bind f).bind g = m.bind fun a => (f a).bind g := by
  funext s
  unfold DM.bind
  generalize m s = r
  obtain ⟨r, s1⟩ := r
  cases r <;> rfl

theorem merge_append (f : Nat) (ys : List Val) : ∀ (xs : List Val) (kw : List (Bytes × Category)),
    mergeAll loc f (xs ++ ys) kw = (mergeAll loc f xs kw).bind (mergeAll loc f ys)
  | [], kw => rfl
  | .dict c es :: xs, kw => by
    rw [List.cons_append]
    unfold mergeAll
    rw [bind_assoc']
    congr 1
    funext items
    rw [bind_assoc']
    congr 1
    funext kw
    exact merge_append f ys xs kw
  | .stream _ _ _ :: xs, kw => rfl
  | .atom _ :: xs, kw => rfl
  | .arr _ :: xs, kw => rfl

theorem layers_merge_all {store : Store} (hd : Delivers loc I store) (isProcs : Bytes → Bool) {rs : List Val} {chain : List (List (Bytes × Category))}
    (h : Layers store rs chain) : (∀ own ∈ chain, KindsOf isProcs own) → ∃ kw, Kinds isProcs kw ∧
      (∀ cat name, resource kw cat name = nearest chain cat name) ∧ (∀ cat, procsIn kw cat = chain.reverse.flatMap fun own => procsDefined own cat) ∧
      Ev fun f => Gives I (mergeAll loc f rs.reverse []) kw := by
  induction h with
  | nil => exact fun _ => ⟨[], fun _ _ h => (by cases h), fun _ _ => rfl, fun _ => rfl, .all fun f => gives_pure _⟩
  | skip rs chain h ih =>
    intro hk
    obtain ⟨kw, h1, h2, hp, h3⟩ := ih fun own ho => hk own (List.mem_cons_of_mem _ ho)
    exact ⟨kw, h1, fun cat name => by rw [h2]; rfl, fun cat => by rw [hp, List.reverse_cons, List.flatMap_append]; exact (List.append_nil _).symm, h3⟩
  | cons c res cs rs chain h1 h2 h3 ih =>
    intro hk
    obtain ⟨kw, k1, k2, kp, k3⟩ := ih fun own ho => hk own (List.mem_cons_of_mem _ ho)
    obtain ⟨items, i1, i2⟩ := categories_merge hd isProcs h1 h2 (hk cs List.mem_cons_self)
    obtain ⟨kw', m1, m2, mp, m3⟩ := i2 kw k1
    refine ⟨kw', m1, fun cat name => ?_, fun cat => by rw [mp, kp, List.reverse_cons, List.flatMap_append, List.flatMap_singleton], ((k3.and i1).and m3).mono fun f hf => ?_⟩
    · rw [m2, k2]
      unfold nearest
      rw [List.findSome?_cons]
      cases definedIn cs cat name <;> rfl
    · rw [List.reverse_cons, merge_append]
      exact gives_bind hf.1.1 (gives_bind hf.1.2 (gives_bind hf.2 (gives_pure _)))

theorem layers_merge {store : Store} (hd : Delivers loc I store) (isProcs : Bytes → Bool) {rs : List Val} {chain : List (List (Bytes × Category))}
    (h : Layers store rs chain) (hk : ∀ own ∈ chain, KindsOf isProcs own) : ∃ kw, Kinds isProcs kw ∧
      (∀ cat name, resource kw cat name = nearest chain cat name) ∧ Ev fun f => Gives I (mergeAll loc f rs.reverse []) kw := by
  obtain ⟨kw, h1, h2, _, h3⟩ := layers_merge_all (loc := loc) (I := I) hd isProcs h hk
  exact ⟨kw, h1, h2, h3⟩

/-- C48: the resource which a page (or node) finds under a name is the nearest definition: its own, or else the one of the closest
ancestor. -/
theorem C48_nearest {store : Store} (hd : Delivers loc I store) (c : Option Bytes) (page : List (Bytes × Obj)) (chain : List (List (Bytes × Category)))
    (ha : Ancestry store page chain) (hc : Consistent chain) :
    ∃ kw, (∀ cat name, resource kw cat name = nearest chain cat name) ∧ ∃ F, ∀ fuel, F ≤ fuel → Gives I (fromPage loc fuel (.dict c page) []) kw := by
  obtain ⟨rs, h1, h2⟩ := stack_gives (loc := loc) (I := I) hd ha
  obtain ⟨isProcs, hp⟩ := hc
  obtain ⟨kw, _, k2, k3⟩ := layers_merge (loc := loc) (I := I) hd isProcs h1 fun own ho e he => by
    have := hp own ho e he
    unfold KindOf
    cases h : e.2 <;> rw [h] at this <;> exact this
  exact ⟨kw, k2, ((h2 c []).and k3).mono fun f hf => gives_bind hf.1 hf.2⟩

/-- C48, for the contents of a form: its own resources come before those of the page on which it is painted. -/
theorem C48_form {store : Store} (hd : Delivers loc I store) (c : Option Bytes) (page : List (Bytes × Obj)) (chain : List (List (Bytes × Category)))
    (ha : Ancestry store page chain) (cr : Option Bytes) (res : List (Bytes × Obj)) (own : List (Bytes × Category)) (ho : CategoriesAre store res own)
    (hn : (res.map (·.1)).Nodup) (hc : Consistent (own :: chain)) :
    ∃ kw, (∀ cat name, resource kw cat name = nearest (own :: chain) cat name) ∧
      ∃ F, ∀ fuel, F ≤ fuel → Gives I (fromPage loc fuel (.dict c page) [.dict cr res]) kw := by
  obtain ⟨rs, h1, h2⟩ := stack_gives (loc := loc) (I := I) hd ha
  obtain ⟨isProcs, hp⟩ := hc
  obtain ⟨kw, _, k2, k3⟩ := layers_merge (loc := loc) (I := I) hd isProcs (.cons cr res own rs chain ho hn h1) fun own ho e he => by
    have := hp own ho e he
    unfold KindOf
    cases h : e.2 <;> rw [h] at this <;> exact this
  exact ⟨kw, k2, ((h2 c [.dict cr res]).and k3).mono fun f hf => gives_bind hf.1 hf.2⟩

/-! ### A small document which meets the hypotheses -/

/-- Catalog 1, page tree 2 with the pages 3 and 5, below the node 4; fonts are defined in 2 and 3. -/
def sample : Store
  | 1, 0 => some (.dict [(b!"Type", .name b!"Catalog"), (b!"Pages", .ref 2 0)])
  | 2, 0 => some (.dict [(b!"Type", .name b!"Pages"), (b!"Kids", .arr [.ref 3 0, .ref 4 0]),
      (b!"Resources", .dict [(b!"Font", .dict [(b!"F1", .ref 6 0), (b!"F2", .int 2)])])])
  | 3, 0 => some (.dict [(b!"Type", .name b!"Page"), (b!"Parent", .ref 2 0), (b!"Resources", .ref 8 0)])
  | 4, 0 => some (.dict [(b!"Type", .name b!"Pages"), (b!"Parent", .ref 2 0), (b!"Kids", .ref 7 0)])
  | 5, 0 => some (.dict [(b!"Type", .name b!"Page"), (b!"Parent", .ref 4 0)])
  | 6, 0 => some (.name b!"Six")
  | 7, 0 => some (.arr [.ref 5 0])
  | 8, 0 => some (.dict [(b!"ProcSet", .arr [.name b!"PDF"]), (b!"Font", .dict [(b!"F2", .int 3)])])
  | _, _ => none

/-- A parser which knows these objects. -/
def sampleLoc (store : Store) : Locator Unit := fun n g s => (.ok ((store n g).getD .null), s)

theorem sample_delivers (store : Store) : Delivers (sampleLoc store) (fun _ => True) store := by
  intro n g o s _ h
  exact ⟨by show Except.ok _ = _; rw [h]; rfl, trivial⟩

theorem sample_tree : PageTree sample 2 0
    [[(b!"Type", .name b!"Page"), (b!"Parent", .ref 2 0), (b!"Resources", .ref 8 0)], [(b!"Type", .name b!"Page"), (b!"Parent", .ref 4 0)]] :=
  .node 2 0 _ [(3, 0), (4, 0)] _ rfl rfl (.direct _ _ rfl)
    (.cons 3 0 _ _ _ (.page 3 0 _ rfl rfl) (.cons 4 0 _ _ _ (.node 4 0 _ [(5, 0)] _ rfl rfl (.indirect _ 7 0 _ rfl rfl)
      (.cons 5 0 _ _ _ (.page 5 0 _ rfl rfl) .nil)) .nil))

/-- The hypotheses of C46 are met. -/
example : ∃ F, ∀ fuel, F ≤ fuel → ∃ s', docPages (sampleLoc sample) fuel (.dict none [(b!"Pages", .ref 2 0)]) () =
    ([asPage [(b!"Type", .name b!"Page"), (b!"Parent", .ref 2 0), (b!"Resources", .ref 8 0)],
      asPage [(b!"Type", .name b!"Page"), (b!"Parent", .ref 4 0)]], none, s') := by
  obtain ⟨F, h⟩ := C46_order (sample_delivers sample) none [(b!"Pages", .ref 2 0)] 2 0 _ rfl sample_tree (by intro es h; cases h; rfl)
  refine ⟨F, fun fuel hf => ?_⟩
  obtain ⟨s', _, e⟩ := h fuel hf () trivial
  exact ⟨s', e⟩

/-- The resources of the first page and its parent. -/
def sampleChain : List (List (Bytes × Category)) :=
  [[(b!"ProcSet", .procs [b!"PDF"]), (b!"Font", .named [(b!"F2", .atom (.int 3))])],
   [(b!"Font", .named [(b!"F1", .atom (.name b!"Six")), (b!"F2", .atom (.int 2))])]]

theorem sample_ancestry : Ancestry sample [(b!"Type", .name b!"Page"), (b!"Parent", .ref 2 0), (b!"Resources", .ref 8 0)] sampleChain := by
  have h8 : DictKind [(b!"ProcSet", .arr [.name b!"PDF"]), (b!"Font", .dict [(b!"F2", .int 3)])] none := .untyped rfl
  have h2 : DictKind [(b!"Font", Obj.dict [(b!"F1", .ref 6 0), (b!"F2", .int 2)])] none := .untyped rfl
  refine .child _ _ (some b!"Pages") _ _ (.present none _ _ ⟨_, rfl, .ref 8 0 _ _ rfl (by simp) (.dict _ _ h8)⟩ ?_ (by decide))
    ⟨_, rfl, .ref 2 0 _ _ rfl (by simp) (.dict _ _ (.typed _ rfl (by decide)))⟩ (by simp)
    (.top _ _ (.present none _ _ ⟨_, rfl, .dict _ _ h2⟩ ?_ (by decide)) (Or.inl rfl))
  · exact .cons _ _ _ _ _ _ (.cons _ _ _ _ (.atom _ trivial) .nil) (.procs [b!"PDF"])
      (.cons _ _ _ _ _ _ (.dict _ _ (.untyped rfl)) (.named _ _ _ (.cons _ _ _ _ _ (.atom _ trivial) .nil) (by decide)) .nil)
  · exact .cons _ _ _ _ _ _ (.dict _ _ (.untyped rfl)) (.named _ _ _ (.cons _ _ _ _ _ (.ref 6 0 _ _ rfl (by simp) (.atom _ trivial))
      (.cons _ _ _ _ _ (.atom _ trivial) .nil)) (by decide)) .nil

/-- The hypotheses of C48 are met: F1 is inherited, F2 is the own one of the page. -/
example : ∃ kw, resource kw b!"Font" b!"F1" = some (.atom (.name b!"Six")) ∧ resource kw b!"Font" b!"F2" = some (.atom (.int 3)) ∧
    resource kw b!"Font" b!"F3" = none ∧ ∃ F, ∀ fuel, F ≤ fuel → Gives (fun _ => True) (fromPage (sampleLoc sample) fuel
      (.dict none [(b!"Type", .name b!"Page"), (b!"Parent", .ref 2 0), (b!"Resources", .ref 8 0)]) []) kw := by
  obtain ⟨kw, h1, h2⟩ := C48_nearest (sample_delivers sample) none _ _ sample_ancestry
    ⟨fun k => k == b!"ProcSet", by
      intro own ho e he
      simp only [sampleChain, List.mem_cons, List.not_mem_nil, or_false] at ho
      rcases ho with rfl | rfl
      · simp only [List.mem_cons, List.not_mem_nil, or_false] at he
        rcases he with rfl | rfl
        · rfl
        · show (_ == _) = false; decide
      · simp only [List.mem_cons, List.not_mem_nil, or_false] at he
        subst he
        show (_ == _) = false; decide⟩
  exact ⟨kw, by rw [h1]; rfl, by rw [h1]; rfl, by rw [h1]; rfl, h2⟩

/-- C48 is false when a category holds names in one node and an array in another: AttributeError instead of a resource. -/
theorem C48_mixed_counterexample : ∀ fuel, 10 ≤ fuel → (fromPage (sampleLoc fun _ _ => none) fuel
    (.dict none [(b!"Resources", .dict [(b!"ColorSpace", .arr [.name b!"Pattern"]), (b!"Font", .dict [(b!"F1", .int 1)])]),
      (b!"Parent", .dict [(b!"Resources", .dict [(b!"ColorSpace", .dict [(b!"C1", .name b!"DeviceRGB")])])])]) [] ()).1 = .error .attributeError := by
  intro fuel hf
  obtain ⟨f, rfl⟩ : ∃ f, fuel = f + 10 := ⟨fuel - 10, by omega⟩
  rfl

/-- C48, the other way round: a dictionary in the page and an array in its parent. -/
theorem C48_mixed_array_counterexample : ∀ fuel, 10 ≤ fuel → (fromPage (sampleLoc fun _ _ => none) fuel
    (.dict none [(b!"Resources", .dict [(b!"ColorSpace", .dict [(b!"C1", .name b!"DeviceRGB")]), (b!"Font", .dict [(b!"F1", .int 1)])]),
      (b!"Parent", .dict [(b!"Resources", .dict [(b!"ColorSpace", .arr [.name b!"Pattern"])])])]) [] ()).1 = .error .typeError := by
  intro fuel hf
  obtain ⟨f, rfl⟩ : ∃ f, fuel = f + 10 := ⟨fuel - 10, by omega⟩
  rfl

/-! ### C76: cyclic references -/

/-- C76: reading an entry ends with a value whatever cycles the references form, if the entry holds, or refers to, a dictionary or stream:
their entries are not read before they are used. -/
theorem C76_dictionaries_partial {store : Store} (hd : Delivers loc I store) (c : Option Bytes) (es : List (Bytes × Obj)) (k : Bytes) (n g : Nat)
    (ds : List (Bytes × Obj)) (kind : Option Bytes) (h : dictGet es k = some (.ref n g)) (hs : store n g = some (.dict ds)) (hk : DictKind ds kind) :
    ∃ F, ∀ fuel, F ≤ fuel → Gives I (attr loc fuel (.dict c es) k) (.dict kind ds) :=
  C75_entries hd c es k _ ⟨_, h, .ref n g _ _ hs (by simp) (.dict _ _ hk)⟩

/-- The references in an object, outside of dictionaries and streams, refer to objects of lower rank. -/
inductive Below (rank : Nat → Nat → Nat) (r : Nat) : Obj → Prop
  | atom (o : Obj) : Atomic o → Below rank r o
  | dict (es : List (Bytes × Obj)) (c : Option Bytes) : DictKind es c → Below rank r (.dict es)
  | stream (d : List (Bytes × Obj)) (data c : Bytes) : StreamKind d c → Below rank r (.stream d data)
  | nil : Below rank r (.arr [])
  | cons (x : Obj) (xs : List Obj) : Below rank r x → Below rank r (.arr xs) → Below rank r (.arr (x :: xs))
  | ref (n g : Nat) : rank n g < r → Below rank r (.ref n g)

theorem below_reads {store : Store} {rank : Nat → Nat → Nat} (hs : ∀ n g, ∃ o, store n g = some o ∧ (∀ a b, o ≠ .ref a b) ∧ Below rank (rank n g) o) :
    ∀ r o, Below rank r o → ∃ v, Reads store o v ∧ ∀ xs, o = .arr xs → ∃ vs, v = .arr vs := by
  intro r
  induction r using Nat.strongRecOn with
  | ind r ih =>
    intro o h
    induction h with
    | atom o h => exact ⟨_, .atom o h, fun xs e => by subst e; exact absurd h id⟩
    | dict es c h => exact ⟨_, .dict es c h, fun xs e => by cases e⟩
    | stream d data c h => exact ⟨_, .stream d data c h, fun xs e => by cases e⟩
    | nil => exact ⟨_, .nil, fun xs e => ⟨_, rfl⟩⟩
    | cons x xs _ _ ih1 ih2 =>
      obtain ⟨v, hv, _⟩ := ih1
      obtain ⟨w, hw, ha⟩ := ih2
      obtain ⟨vs, rfl⟩ := ha xs rfl
      exact ⟨_, .cons x v xs vs hv hw, fun _ _ => ⟨_, rfl⟩⟩
    | ref n g h =>
      obtain ⟨o, h1, h2, h3⟩ := hs n g
      obtain ⟨v, hv, _⟩ := ih _ h o h3
      exact ⟨v, .ref n g o v h1 h2 hv, fun xs e => by cases e⟩

/-- C76: reading any entry ends with a value if no array contains itself, through references and other arrays. -/
theorem C76_acyclic_arrays_partial {store : Store} (hd : Delivers loc I store) (rank : Nat → Nat → Nat)
    (hs : ∀ n g, ∃ o, store n g = some o ∧ (∀ a b, o ≠ .ref a b) ∧ Below rank (rank n g) o) (c : Option Bytes) (es : List (Bytes × Obj)) (k : Bytes)
    (o : Obj) (r : Nat) (h : dictGet es k = some o) (ho : Below rank r o) :
    ∃ v, ∃ F, ∀ fuel, F ≤ fuel → Gives I (attr loc fuel (.dict c es) k) v := by
  obtain ⟨v, hv, _⟩ := below_reads hs r o ho
  exact ⟨v, C75_entries hd c es k v ⟨o, h, hv⟩⟩

/-- C76 is false for arrays: `1 0 obj [1 0 R] endobj` is resolved without end. -/
theorem C76_counterexample {store : Store} (hd : Delivers loc I store) (h : store 1 0 = some (.arr [.ref 1 0])) (s : σ) (hs : I s) :
    ∀ fuel, (attr loc fuel (.dict none [(b!"A", .ref 1 0)]) b!"A" s).1 = .error .diverges := by
  have key : ∀ fuel, (∀ s, I s → (build loc fuel [] (.ref 1 0) s).1 = .error .diverges) ∧
      (∀ s, I s → (factory loc fuel (.arr [.ref 1 0]) s).1 = .error .diverges) := by
    intro fuel
    induction fuel with
    | zero => exact ⟨fun _ _ => rfl, fun _ _ => rfl⟩
    | succ f ih =>
      constructor
      · intro s hs
        obtain ⟨e, i⟩ := hd 1 0 _ s hs h
        unfold build
        dsimp only
        rw [if_neg (by simp)]
        unfold DM.bind
        generalize loc 1 0 s = r at e i
        obtain ⟨r1, r2⟩ := r
        cases e
        dsimp only
        have := ih.2 r2 i
        generalize factory loc f (.arr [.ref 1 0]) r2 = r at this
        obtain ⟨q1, q2⟩ := r
        cases this
        rfl
      · intro s hs
        unfold factory
        dsimp only
        unfold DM.mapM DM.bind
        dsimp only
        have := ih.1 s hs
        generalize build loc f [] (.ref 1 0) s = r at this
        obtain ⟨q1, q2⟩ := r
        cases this
        rfl
  intro fuel
  have := (key fuel).1 s hs
  show (entry loc fuel [(b!"A", .ref 1 0)] b!"A" s).1 = _
  have e : entry loc fuel [(b!"A", .ref 1 0)] b!"A" s = match build loc fuel [] (.ref 1 0) s with
    | (.error .keyError, s1) => (.ok (.atom .null), s1)
    | r => r := rfl
  rw [e]
  generalize build loc fuel [] (.ref 1 0) s = r at this
  obtain ⟨q1, q2⟩ := r
  cases this
  rfl

/-! ### C77 -/

/-- C77: a stream of Type XObject is delivered as an image, form or group according to its Subtype. -/
theorem C77_typed_partial {store : Store} (hd : Delivers loc I store) (c : Option Bytes) (es : List (Bytes × Obj)) (k : Bytes) (n g : Nat)
    (d : List (Bytes × Obj)) (data u : Bytes) (h : dictGet es k = some (.ref n g)) (hs : store n g = some (.stream d data))
    (ht : dictGet d b!"Type" = some (.name b!"XObject")) (hu : dictGet d b!"Subtype" = some (.name u)) (hm : u ∈ [b!"Image", b!"Form", b!"Group"]) :
    ∃ F, ∀ fuel, F ≤ fuel → Gives I (attr loc fuel (.dict c es) k) (.stream u d data) :=
  C75_entries hd c es k _ ⟨_, h, .ref n g _ _ hs (by simp) (.stream _ _ _ (.xobject u ht hu hm))⟩

/-- C77 is false without the optional Type: whatever the Subtype, the stream is of no particular class. -/
theorem C77_counterexample {store : Store} (hd : Delivers loc I store) (c : Option Bytes) (es : List (Bytes × Obj)) (k : Bytes) (n g : Nat)
    (d : List (Bytes × Obj)) (data : Bytes) (h : dictGet es k = some (.ref n g)) (hs : store n g = some (.stream d data))
    (ht : dictGet d b!"Type" = none) :
    ∃ F, ∀ fuel, F ≤ fuel → Gives I (attr loc fuel (.dict c es) k) (.stream b!"StreamBasedObject" d data) :=
  C75_entries hd c es k _ ⟨_, h, .ref n g _ _ hs (by simp) (.stream _ _ _ (.plain ht))⟩

/-! ### C78 -/

/-- C78: the enumeration of a page tree ends (C46 says with which pages). -/
theorem C78_trees_partial {store : Store} (hd : Delivers loc I store) (c : Option Bytes) (catalog : List (Bytes × Obj)) (n g : Nat)
    (ps : List (List (Bytes × Obj))) (hc : dictGet catalog b!"Pages" = some (.ref n g)) (ht : PageTree store n g ps)
    (hn : ∀ es, store n g = some (.dict es) → dictGet es b!"Type" = some (.name b!"Pages")) (s : σ) (hs : I s) :
    ∃ F, ∀ fuel, F ≤ fuel → (docPages loc fuel (.dict c catalog) s).2.1 = none := by
  obtain ⟨F, h⟩ := C46_order hd c catalog n g ps hc ht hn
  refine ⟨F, fun fuel hf => ?_⟩
  obtain ⟨s', _, e⟩ := h fuel hf s hs
  rw [e]

/-- The generator yields these items and fails. -/
def Fails {α : Type} (I : σ → Prop) (m : Gen σ α) (xs : List α) (e : Exc) : Prop := ∀ s, I s → ∃ s', m s = (xs, some e, s')

theorem fails_seq {α : Type} {a b : Gen σ α} {xs ys : List α} {e : Exc} (h1 : Yields I a xs) (h2 : Fails I b ys e) : Fails I (Gen.seq a b) (xs ++ ys) e := by
  intro s hs
  obtain ⟨s1, i1, e1⟩ := h1 s hs
  obtain ⟨s2, e2⟩ := h2 s1 i1
  refine ⟨s2, ?_⟩
  unfold Gen.seq
  rw [e1]
  dsimp only
  rw [e2]

theorem fails_first {α : Type} {a b : Gen σ α} {xs : List α} {e : Exc} (h1 : Fails I a xs e) : Fails I (Gen.seq a b) xs e := by
  intro s hs
  obtain ⟨s1, e1⟩ := h1 s hs
  refine ⟨s1, ?_⟩
  unfold Gen.seq
  rw [e1]

mutual
/-- A page tree which is broken: after these pages comes a node without Kids, or whose Kids are a dictionary. -/
inductive Broken (store : Store) : Nat → Nat → List (List (Bytes × Obj)) → Exc → Prop
  | missing (n g : Nat) (es : List (Bytes × Obj)) : store n g = some (.dict es) → dictGet es b!"Type" = some (.name b!"Pages") → NoEntry es b!"Kids" →
      Broken store n g [] .typeError
  | dictionary (n g : Nat) (es ks : List (Bytes × Obj)) (c : Option Bytes) : store n g = some (.dict es) → dictGet es b!"Type" = some (.name b!"Pages") →
      EntryIs store es b!"Kids" (.dict c ks) → ks ≠ [] → Broken store n g [] .attributeError
  | node (n g : Nat) (es : List (Bytes × Obj)) (kids : List (Nat × Nat)) (ps : List (List (Bytes × Obj))) (e : Exc) : store n g = some (.dict es) →
      dictGet es b!"Type" = some (.name b!"Pages") → KidsAre store es kids → BrokenKids store kids ps e → Broken store n g ps e
/-- The same among the kids of a node. -/
inductive BrokenKids (store : Store) : List (Nat × Nat) → List (List (Bytes × Obj)) → Exc → Prop
  | here (n g : Nat) (kids : List (Nat × Nat)) (vs : List Val) (ps : List (List (Bytes × Obj))) (e : Exc) : Broken store n g ps e →
      Reads store (.arr (kids.map fun k => .ref k.1 k.2)) (.arr vs) → BrokenKids store ((n, g) :: kids) ps e
  | later (n g : Nat) (kids : List (Nat × Nat)) (ps qs : List (List (Bytes × Obj))) (e : Exc) : PageTree store n g ps → BrokenKids store kids qs e →
      BrokenKids store ((n, g) :: kids) (ps ++ qs) e
end

theorem pages_broken (root : Val) {c : Option Bytes} {es : List (Bytes × Obj)} {v : Val} {e : Exc}
    (h1 : Ev fun f => Gives I (attr loc f (.dict c es) b!"Kids") v) (hk : kidsOf v = .error e) :
    Ev fun f => Fails I (pages loc root f (.dict c es)) [] e := by
  refine .succ (h1.mono fun f hf s hs => ?_)
  obtain ⟨e1, i⟩ := hf s hs
  have e0 : orSelf root (.dict c es) = .dict c es := rfl
  unfold pages
  rw [e0]
  generalize attr loc f (.dict c es) b!"Kids" s = r at e1 i
  obtain ⟨r1, r2⟩ := r
  cases e1
  dsimp only
  rw [hk]
  exact ⟨_, rfl⟩

theorem pages_node_fails (root : Val) {c : Option Bytes} {es : List (Bytes × Obj)} {vs : List Val} {ps : List Val} {e : Exc}
    (h1 : Ev fun f => Gives I (attr loc f (.dict c es) b!"Kids") (.arr vs)) (h2 : Ev fun f => Fails I (Gen.forEach (child loc root f) vs) ps e) :
    Ev fun f => Fails I (pages loc root f (.dict c es)) ps e := by
  refine .succ ((h1.and h2).mono fun f hf s hs => ?_)
  obtain ⟨e1, i⟩ := hf.1 s hs
  obtain ⟨s', e'⟩ := hf.2 _ i
  refine ⟨s', ?_⟩
  have e0 : orSelf root (.dict c es) = .dict c es := rfl
  unfold pages
  rw [e0]
  generalize attr loc f (.dict c es) b!"Kids" s = r at e1 e'
  obtain ⟨r1, r2⟩ := r
  cases e1
  exact e'

mutual
theorem broken_fails {store : Store} (hd : Delivers loc I store) : ∀ {n g : Nat} {ps : List (List (Bytes × Obj))} {e : Exc}, Broken store n g ps e →
    ∃ es, store n g = some (.dict es) ∧ dictGet es b!"Type" = some (.name b!"Pages") ∧
      ∀ root, Ev fun f => Fails I (pages loc root f (.dict (some b!"Pages") es)) (ps.map asPage) e
  | _, _, _, _, .missing n g es h1 h2 h3 => ⟨es, h1, h2, fun root => pages_broken root (C75_missing (some b!"Pages") es b!"Kids" h3) rfl⟩
  | _, _, _, _, .dictionary n g es ks c h1 h2 h3 h4 => ⟨es, h1, h2, fun root => pages_broken root (entry_reads hd h3) (by unfold kidsOf; exact if_neg h4)⟩
  | _, _, ps, _, .node n g es kids _ _ h1 h2 h3 h4 => by
    obtain ⟨vs, hv, hy⟩ := broken_kids hd h4
    refine ⟨es, h1, h2, fun root => ?_⟩
    have hk : EntryIs store es b!"Kids" (.arr vs) := by
      cases h3 with
      | direct _ h => exact ⟨_, h, hv⟩
      | indirect a b _ h h' => exact ⟨_, h, .ref a b _ _ h' (by simp) hv⟩
    exact pages_node_fails root (entry_reads hd hk) (hy root)
theorem broken_kids {store : Store} (hd : Delivers loc I store) : ∀ {kids : List (Nat × Nat)} {ps : List (List (Bytes × Obj))} {e : Exc},
    BrokenKids store kids ps e → ∃ vs, Reads store (.arr (kids.map fun k => .ref k.1 k.2)) (.arr vs) ∧
      ∀ root, Ev fun f => Fails I (Gen.forEach (child loc root f) vs) (ps.map asPage) e
  | _, _, _, .here n g kids vs ps e h1 h2 => by
    obtain ⟨es, hs, ht, hf⟩ := broken_fails hd h1
    refine ⟨.dict (some b!"Pages") es :: vs, .cons _ _ _ _ (.ref n g _ _ hs (by simp) (.dict es _ (.typed _ ht (by decide)))) h2, fun root => ?_⟩
    exact (hf root).mono fun f h => fails_first h
  | _, _, _, .later n g kids ps qs e h1 h2 => by
    obtain ⟨v, hv, hy⟩ := tree_yields hd h1
    obtain ⟨vs, hvs, hys⟩ := broken_kids hd h2
    refine ⟨v :: vs, .cons _ _ _ _ hv hvs, fun root => ?_⟩
    refine ((hy root).and (hys root)).mono fun f hf => ?_
    rw [List.map_append]
    exact fails_seq hf.1 hf.2
end

/-- C78: when a node of the page tree has no Kids, or Kids which are no array, the enumeration yields the pages before it and then raises:
pages are not lost silently. -/
theorem C78_broken_tree {store : Store} (hd : Delivers loc I store) (c : Option Bytes) (catalog : List (Bytes × Obj)) (n g : Nat)
    (ps : List (List (Bytes × Obj))) (e : Exc) (hc : dictGet catalog b!"Pages" = some (.ref n g)) (ht : Broken store n g ps e) (s : σ) (hs : I s) :
    ∃ F, ∀ fuel, F ≤ fuel → ∃ s', docPages loc fuel (.dict c catalog) s = (ps.map asPage, some e, s') := by
  obtain ⟨es, h1, h2, h3⟩ := broken_fails hd ht
  obtain ⟨F, hF⟩ := (entry_reads hd (k := b!"Pages") (v := .dict (some b!"Pages") es)
    ⟨_, hc, .ref n g _ _ h1 (by simp) (.dict es _ (.typed _ h2 (by decide)))⟩ : Ev fun f => Gives I (attr loc f (.dict c catalog) b!"Pages") (.dict (some b!"Pages") es)).and
      (h3 (.dict (some b!"Pages") es))
  refine ⟨F, fun fuel hf => ?_⟩
  obtain ⟨a, b⟩ := hF fuel hf
  have e1 : (attr loc fuel (.dict c catalog) b!"Pages" s).1 = .ok (.dict (some b!"Pages") es) := (a s hs).1
  have i : I (attr loc fuel (.dict c catalog) b!"Pages" s).2 := (a s hs).2
  unfold docPages
  generalize attr loc fuel (.dict c catalog) b!"Pages" s = r at e1 i
  obtain ⟨r1, r2⟩ := r
  cases e1
  dsimp only
  rw [if_pos rfl]
  exact b _ i

/-- A tree with a page and a node without Kids. -/
example : Broken (fun n _ => if n = 1 then some (.dict [(b!"Type", .name b!"Pages"), (b!"Kids", .arr [.ref 2 0, .ref 3 0])])
      else if n = 2 then some (.dict [(b!"Type", .name b!"Page")]) else some (.dict [(b!"Type", .name b!"Pages")])) 1 0 [[(b!"Type", .name b!"Page")]] .typeError :=
  .node _ _ _ [(2, 0), (3, 0)] _ _ rfl rfl (.direct _ _ rfl) (.later _ _ _ [_] [] _ (.page _ _ _ rfl rfl)
    (.here _ _ _ [] _ _ (.missing _ _ _ rfl rfl (Or.inl rfl)) .nil))

/-- A node with the kids: a page, null, another page. -/
def gap : List (Bytes × Obj) :=
  [(b!"Type", .name b!"Pages"), (b!"Kids", .arr [.dict [(b!"Type", .name b!"Page"), (b!"N", .int 1)], .null, .dict [(b!"Type", .name b!"Page"), (b!"N", .int 3)]])]

/-- C78 is false when a kid is null (or a reference to an undefined object): the enumeration starts again at the root, so that the first
page is repeated without end and the third is never reached. -/
theorem C78_null_kid_counterexample : ∀ fuel, ∃ k,
    docPages (sampleLoc fun _ _ => none) fuel (.dict none [(b!"Pages", .dict gap)]) () =
      (List.replicate k (asPage [(b!"Type", .name b!"Page"), (b!"N", .int 1)]), some .diverges, ()) ∧ fuel ≤ k + 5 := by
  have h : ∀ node, orSelf (.dict (some b!"Pages") gap) node = .dict (some b!"Pages") gap → ∀ fuel, ∃ k,
      pages (sampleLoc fun _ _ => none) (.dict (some b!"Pages") gap) fuel node () =
        (List.replicate k (asPage [(b!"Type", .name b!"Page"), (b!"N", .int 1)]), some .diverges, ()) ∧ fuel ≤ k + 5 := by
    intro node hn fuel
    induction fuel generalizing node with
    | zero => exact ⟨0, rfl, by omega⟩
    | succ f ih =>
      by_cases h3 : f < 3
      · refine ⟨0, ?_, by omega⟩
        unfold pages
        rw [hn]
        rcases f with _ | _ | _ | f
        · rfl
        · rfl
        · rfl
        · omega
      · obtain ⟨f', rfl⟩ : ∃ f', f = f' + 3 := ⟨f - 3, by omega⟩
        obtain ⟨k, hk, hf⟩ := ih (.atom .null) rfl
        refine ⟨k + 1, ?_, by omega⟩
        have ha : attr (sampleLoc fun _ _ => none) (f' + 3) (.dict (some b!"Pages") gap) b!"Kids" () = (.ok (.arr [asPage [(b!"Type", .name b!"Page"), (b!"N", .int 1)],
          .atom .null, asPage [(b!"Type", .name b!"Page"), (b!"N", .int 3)]]), ()) := rfl
        unfold pages
        rw [hn, ha]
        have e : ∀ (g : Val → Gen Unit Val) xs, g (.atom .null) () = (xs, some .diverges, ()) →
            g (asPage [(b!"Type", .name b!"Page"), (b!"N", .int 1)]) () = ([asPage [(b!"Type", .name b!"Page"), (b!"N", .int 1)]], none, ()) →
            Gen.forEach g [asPage [(b!"Type", .name b!"Page"), (b!"N", .int 1)], .atom .null, asPage [(b!"Type", .name b!"Page"), (b!"N", .int 3)]] () =
              (asPage [(b!"Type", .name b!"Page"), (b!"N", .int 1)] :: xs, some .diverges, ()) := by
          intro g xs h1 h2
          unfold Gen.forEach Gen.seq
          rw [h2]
          unfold Gen.forEach Gen.seq
          dsimp only
          rw [h1]
          rfl
        exact e _ _ hk rfl
  intro fuel
  by_cases h2 : fuel < 2
  · refine ⟨0, ?_, by omega⟩
    rcases fuel with _ | _ | f
    · rfl
    · rfl
    · omega
  · obtain ⟨f, rfl⟩ : ∃ f, fuel = f + 2 := ⟨fuel - 2, by omega⟩
    obtain ⟨k, hk, hf⟩ := h (.dict (some b!"Pages") gap) rfl (f + 2)
    refine ⟨k, ?_, hf⟩
    have ha : attr (sampleLoc fun _ _ => none) (f + 2) (.dict none [(b!"Pages", .dict gap)]) b!"Pages" () = (.ok (.dict (some b!"Pages") gap), ()) := rfl
    unfold docPages
    rw [ha]
    exact hk

/-- A node which is its own kid. -/
def loop : List (Bytes × Obj) := [(b!"Type", .name b!"Pages"), (b!"Kids", .arr [.ref 1 0])]

/-- C78 is false when a node is among its own kids: no page, and no end. -/
theorem C78_cycle_counterexample : ∀ fuel,
    docPages (sampleLoc fun _ _ => some (.dict loop)) fuel (.dict none [(b!"Pages", .ref 1 0)]) () = ([], some .diverges, ()) := by
  have h : ∀ fuel, pages (sampleLoc fun _ _ => some (.dict loop)) (.dict (some b!"Pages") loop) fuel (.dict (some b!"Pages") loop) () =
      ([], some .diverges, ()) := by
    intro fuel
    induction fuel with
    | zero => rfl
    | succ f ih =>
      by_cases h3 : f < 3
      · rcases f with _ | _ | _ | f
        · rfl
        · rfl
        · rfl
        · omega
      · obtain ⟨f', rfl⟩ : ∃ f', f = f' + 3 := ⟨f - 3, by omega⟩
        have ha : attr (sampleLoc fun _ _ => some (.dict loop)) (f' + 3) (.dict (some b!"Pages") loop) b!"Kids" () =
          (.ok (.arr [.dict (some b!"Pages") loop]), ()) := rfl
        have ho : orSelf (.dict (some b!"Pages") loop) (.dict (some b!"Pages") loop) = .dict (some b!"Pages") loop := rfl
        unfold pages
        rw [ho, ha]
        have e : ∀ (g : Val → Gen Unit Val), g (.dict (some b!"Pages") loop) () = ([], some .diverges, ()) →
            Gen.forEach g [.dict (some b!"Pages") loop] () = ([], some .diverges, ()) := by
          intro g h1
          unfold Gen.forEach Gen.seq
          rw [h1]
        exact e _ ih
  intro fuel
  by_cases h2 : fuel < 2
  · rcases fuel with _ | _ | f
    · rfl
    · rfl
    · omega
  · obtain ⟨f, rfl⟩ : ∃ f, fuel = f + 2 := ⟨fuel - 2, by omega⟩
    have ha : attr (sampleLoc fun _ _ => some (.dict loop)) (f + 2) (.dict none [(b!"Pages", .ref 1 0)]) b!"Pages" () = (.ok (.dict (some b!"Pages") loop), ()) := rfl
    unfold docPages
    rw [ha]
    exact h (f + 2)

end PdfReader
