/-
  C116: several iterations over the pages of a document at the same time.
-/
import Verif.Model.Iter
import Verif.Props.File
import Verif.Props.Walk

namespace PdfReader
open Spec

variable {σ : Type} {loc : Locator σ} {I : σ → Prop}

/-- The generator will give these pages and end, whatever else happens to the document in between. -/
def Owes (loc : Locator σ) (I : σ → Prop) (root : Val) (F : Nat) : List Frame → List Val → Prop
  | fs, [] => ∀ fuel, F ≤ fuel → ∀ s, I s → ∃ s', I s' ∧ nextPage loc root fuel fs s = (.ok none, [], s')
  | fs, p :: ps => ∀ fuel, F ≤ fuel → ∀ s, I s → ∃ fs' s', I s' ∧ nextPage loc root fuel fs s = (.ok (some p), fs', s') ∧ Owes loc I root F fs' ps

theorem owes_mono {root : Val} {F F' : Nat} (hF : F ≤ F') : ∀ {ps : List Val} {fs : List Frame}, Owes loc I root F fs ps → Owes loc I root F' fs ps
  | [], _, h => fun fuel hf s hs => h fuel (by omega) s hs
  | _ :: _, _, h => fun fuel hf s hs => by
    obtain ⟨fs', s', i, e, h'⟩ := h fuel (by omega) s hs
    exact ⟨fs', s', i, e, owes_mono hF h'⟩

/-- If a step leads from `fs` to `gs`, what `gs` owes is owed by `fs`. -/
theorem owes_step {root : Val} {F : Nat} {fs gs : List Frame} {ps : List Val}
    (hstep : ∀ fuel, F ≤ fuel → ∀ s, I s → ∃ s', I s' ∧ nextPage loc root (fuel + 1) fs s = nextPage loc root fuel gs s')
    (h : Owes loc I root F gs ps) : Owes loc I root (F + 1) fs ps := by
  have key : ∀ fuel, F + 1 ≤ fuel → ∀ s, I s → ∃ s' f', F ≤ f' ∧ I s' ∧ nextPage loc root fuel fs s = nextPage loc root f' gs s' := by
    intro fuel hf s hs
    obtain ⟨f, rfl⟩ : ∃ f, fuel = f + 1 := ⟨fuel - 1, by omega⟩
    obtain ⟨s', i, e⟩ := hstep f (by omega) s hs
    exact ⟨s', f, by omega, i, e⟩
  cases ps with
  | nil =>
    intro fuel hf s hs
    obtain ⟨s', f', hf', i, e⟩ := key fuel hf s hs
    rw [e]
    exact h f' hf' s' i
  | cons p ps =>
    intro fuel hf s hs
    obtain ⟨s', f', hf', i, e⟩ := key fuel hf s hs
    obtain ⟨fs', s'', i', e', h'⟩ := h f' hf' s' i
    exact ⟨fs', s'', i', e.trans e', owes_mono (by omega) h'⟩

theorem owes_end (root : Val) : Owes loc I root 1 [] [] := by
  intro fuel hf s hs
  obtain ⟨f, rfl⟩ : ∃ f, fuel = f + 1 := ⟨fuel - 1, by omega⟩
  exact ⟨s, hs, rfl⟩

theorem owes_done {root : Val} {F : Nat} {fs : List Frame} {ps : List Val} (h : Owes loc I root F fs ps) : Owes loc I root (F + 1) (.rest [] :: fs) ps :=
  owes_step (fun _ _ s hs => ⟨s, hs, rfl⟩) h

theorem owes_page {root : Val} {F : Nat} {cs : List Val} {fs : List Frame} {ps : List Val} (es : List (Bytes × Obj)) (h : Owes loc I root F (.rest cs :: fs) ps) :
    Owes loc I root (F + 1) (.rest (asPage es :: cs) :: fs) (asPage es :: ps) := by
  intro fuel hf s hs
  obtain ⟨f, rfl⟩ : ∃ f, fuel = f + 1 := ⟨fuel - 1, by omega⟩
  exact ⟨.rest cs :: fs, s, hs, rfl, owes_mono (by omega) h⟩

theorem owes_node {root : Val} {F : Nat} {es : List (Bytes × Obj)} {vs : List Val} {fs : List Frame} {ps : List Val}
    (hk : Ev fun f => Gives I (attr loc f (.dict (some b!"Pages") es) b!"Kids") (.arr vs))
    (h : Owes loc I root F (.rest vs :: fs) ps) : ∃ F', Owes loc I root F' (.start (.dict (some b!"Pages") es) :: fs) ps := by
  obtain ⟨A, hA⟩ := hk
  refine ⟨max A F + 1, owes_step (gs := .rest vs :: fs) ?_ (owes_mono (Nat.le_max_right _ _) h)⟩
  intro fuel hf s hs
  obtain ⟨e, i⟩ := hA fuel (by omega) s hs
  refine ⟨(attr loc fuel (.dict (some b!"Pages") es) b!"Kids" s).2, i, ?_⟩
  rw [nextPage]
  show (match attr loc fuel (.dict (some b!"Pages") es) b!"Kids" s with
    | (.error e, s1) => ((.error e : Res (Option Val)), ([] : List Frame), s1)
    | (.ok v, s1) => match kidsOf v with | .error e => (.error e, [], s1) | .ok kids => nextPage loc root fuel (.rest kids :: fs) s1) = _
  generalize attr loc fuel (.dict (some b!"Pages") es) b!"Kids" s = r at e
  obtain ⟨r1, r2⟩ := r
  cases e
  rfl

theorem owes_child {root : Val} {F : Nat} {es : List (Bytes × Obj)} {cs : List Val} {fs : List Frame} {ps : List Val}
    (h : Owes loc I root F (.start (.dict (some b!"Pages") es) :: .rest cs :: fs) ps) : Owes loc I root (F + 1) (.rest (.dict (some b!"Pages") es :: cs) :: fs) ps :=
  owes_step (fun _ _ s hs => ⟨s, hs, rfl⟩) h

mutual
theorem tree_owes {store : Store} (hd : Delivers loc I store) : ∀ {n g : Nat} {ps : List (List (Bytes × Obj))}, PageTree store n g ps →
    ∃ v, Reads store (.ref n g) v ∧ ∀ root F cs fs qs, Owes loc I root F (.rest cs :: fs) qs → ∃ F', Owes loc I root F' (.rest (v :: cs) :: fs) (ps.map asPage ++ qs)
  | _, _, _, .page n g es h1 h2 =>
    ⟨asPage es, .ref n g _ _ h1 (by simp) (.dict es _ (.typed _ h2 (by decide))), fun _ F _ _ _ h => ⟨F + 1, owes_page es h⟩⟩
  | _, _, ps, .node n g es kids _ h1 h2 h3 h4 => by
    obtain ⟨vs, hv, hy⟩ := trees_owe hd h4
    refine ⟨.dict (some b!"Pages") es, .ref n g _ _ h1 (by simp) (.dict es _ (.typed _ h2 (by decide))), fun root F cs fs qs h => ?_⟩
    have hk : EntryIs store es b!"Kids" (.arr vs) := by
      cases h3 with
      | direct _ h => exact ⟨_, h, hv⟩
      | indirect a b _ h h' => exact ⟨_, h, .ref a b _ _ h' (by simp) hv⟩
    obtain ⟨F1, h1⟩ := hy root F (.rest cs :: fs) qs h
    obtain ⟨F2, h2⟩ := owes_node (entry_reads hd hk) h1
    exact ⟨F2 + 1, owes_child h2⟩
theorem trees_owe {store : Store} (hd : Delivers loc I store) : ∀ {kids : List (Nat × Nat)} {ps : List (List (Bytes × Obj))},
    PageTrees store kids ps → ∃ vs, Reads store (.arr (kids.map fun k => .ref k.1 k.2)) (.arr vs) ∧
      ∀ root F fs qs, Owes loc I root F fs qs → ∃ F', Owes loc I root F' (.rest vs :: fs) (ps.map asPage ++ qs)
  | _, _, .nil => ⟨[], .nil, fun _ F _ _ h => ⟨F + 1, owes_done h⟩⟩
  | _, _, .cons n g kids ps qs h1 h2 => by
    obtain ⟨v, hv, hy⟩ := tree_owes hd h1
    obtain ⟨vs, hvs, hys⟩ := trees_owe hd h2
    refine ⟨v :: vs, .cons _ _ _ _ hv hvs, fun root F fs rs h => ?_⟩
    obtain ⟨F1, h1⟩ := hys root F fs rs h
    obtain ⟨F2, h2⟩ := hy root F1 vs fs _ h1
    exact ⟨F2, by rw [List.map_append, List.append_assoc]; exact h2⟩
end

/-- What an iterator gives when it is asked `n` times. -/
def replies (ps : List Val) (n : Nat) : List (Res (Option Val)) := ((ps.map fun p => (.ok (some p) : Res (Option Val))) ++ List.replicate n (Except.ok none)).take n

theorem replies_zero (ps : List Val) : replies ps 0 = [] := rfl

theorem replies_nil (n : Nat) : replies [] (1 + n) = .ok none :: replies [] n := by
  unfold replies
  rw [Nat.add_comm, List.replicate_succ]
  rfl

theorem replies_cons (p : Val) (ps : List Val) (n : Nat) : replies (p :: ps) (1 + n) = .ok (some p) :: replies ps n := by
  unfold replies
  rw [Nat.add_comm, List.map_cons, List.cons_append, List.take_succ_cons]
  congr 1
  rw [List.take_append, List.take_append, List.take_replicate, List.take_replicate]
  congr 2
  omega

/-- An iterator of a document in use: not started, or started and owing. -/
def Waits (loc : Locator σ) (I : σ → Prop) (F : Nat) (all : List Val) (w : Reading σ) (i : Nat) (ps : List Val) : Prop :=
  (w.iters i = none ∧ ps = all) ∨ ∃ it, w.iters i = some it ∧ Owes loc I it.root F it.frames ps

theorem ask_waits {F fuel : Nat} (hf : F ≤ fuel) {all ps : List Val} {w : Reading σ} {i : Nat} {it : PageIter} {s : σ} (hs : I s)
    (ho : Owes loc I it.root F it.frames ps) : I (w.ask loc fuel i it s).st ∧ (∃ a, (w.ask loc fuel i it s).seen i = w.seen i ++ [a] ∧
      ∃ qs, (∀ n, replies ps (1 + n) = a :: replies qs n) ∧ Waits loc I F all (w.ask loc fuel i it s) i qs) ∧
      ∀ j, j ≠ i → (w.ask loc fuel i it s).seen j = w.seen j ∧ (w.ask loc fuel i it s).iters j = w.iters j := by
  cases ps with
  | nil =>
    obtain ⟨s', i', e⟩ := ho fuel hf s hs
    unfold Reading.ask
    dsimp only
    rw [e]
    refine ⟨i', ⟨.ok none, by simp, [], replies_nil, .inr ⟨⟨it.root, []⟩, by simp, ?_⟩⟩, fun j hj => by simp [hj]⟩
    intro f' hf' s1 hs1
    cases f' with
    | zero =>
      have : F = 0 := by omega
      subst this
      obtain ⟨s2, _, e2⟩ := ho 0 (Nat.le_refl _) s1 hs1
      rw [nextPage] at e2
      cases e2
    | succ f' => exact ⟨s1, hs1, rfl⟩
  | cons p ps =>
    obtain ⟨fs', s', i', e, h'⟩ := ho fuel hf s hs
    unfold Reading.ask
    dsimp only
    rw [e]
    exact ⟨i', ⟨.ok (some p), by simp, ps, replies_cons p ps, .inr ⟨⟨it.root, fs'⟩, by simp, h'⟩⟩, fun j hj => by simp [hj]⟩

theorem run_waits {F fuel : Nat} (hf : F ≤ fuel) {root : Val} {all : List Val}
    (hstart : ∀ s, I s → ∃ it s', startPages loc fuel root s = (.ok it, s') ∧ I s' ∧ Owes loc I it.root F it.frames all) :
    ∀ (schedule : List (Use σ)), (∀ m, .other m ∈ schedule → ∀ s, I s → I (m s)) → ∀ (w : Reading σ) (rem : Nat → List Val), I w.st →
      (∀ i, Waits loc I F all w i (rem i)) → ∀ i, (w.run loc fuel root schedule).seen i = w.seen i ++ replies (rem i) (asks i schedule)
  | [], _, w, rem, _, _, i => by
    show w.seen i = _
    rw [asks, replies_zero, List.append_nil]
  | .other m :: schedule, hm, w, rem, hi, hw, i => by
    show ((w.use loc fuel root (.other m)).run loc fuel root schedule).seen i = _
    exact run_waits hf hstart schedule (fun m' h => hm m' (List.mem_cons_of_mem _ h)) (w.use loc fuel root (.other m)) rem (hm m List.mem_cons_self _ hi) hw i
  | .next j :: schedule, hm, w, rem, hi, hw, i => by
    show ((w.use loc fuel root (.next j)).run loc fuel root schedule).seen i = _
    have key : I (w.use loc fuel root (.next j)).st ∧ (∃ a, (w.use loc fuel root (.next j)).seen j = w.seen j ++ [a] ∧
        ∃ qs, (∀ n, replies (rem j) (1 + n) = a :: replies qs n) ∧ Waits loc I F all (w.use loc fuel root (.next j)) j qs) ∧
        ∀ k, k ≠ j → (w.use loc fuel root (.next j)).seen k = w.seen k ∧ (w.use loc fuel root (.next j)).iters k = w.iters k := by
      rcases hw j with ⟨h1, h2⟩ | ⟨it, h1, h2⟩
      · obtain ⟨it, s', e, i', ho⟩ := hstart w.st hi
        have hu : w.use loc fuel root (.next j) = w.ask loc fuel j it s' := by
          unfold Reading.use
          dsimp only
          rw [h1]
          dsimp only
          rw [e]
        rw [hu, h2]
        exact ask_waits hf i' ho
      · have hu : w.use loc fuel root (.next j) = w.ask loc fuel j it w.st := by
          unfold Reading.use
          dsimp only
          rw [h1]
        rw [hu]
        exact ask_waits hf hi h2
    obtain ⟨hi', ⟨a, ha, qs, hq, hwq⟩, hoth⟩ := key
    rw [run_waits hf hstart schedule (fun m' h => hm m' (List.mem_cons_of_mem _ h)) _ (fun k => if k = j then qs else rem k) hi' ?_ i]
    · by_cases hij : i = j
      · subst hij
        rw [ha, asks, if_pos rfl, if_pos rfl, hq, List.append_assoc]
        rfl
      · rw [(hoth i hij).1, if_neg hij, asks, if_neg (fun h => hij h.symm), Nat.zero_add]
    · intro k
      by_cases hk : k = j
      · subst hk
        rw [if_pos rfl]
        exact hwq
      · rw [if_neg hk]
        unfold Waits
        rw [(hoth k hk).2]
        exact hw k

/-- C116: any number of iterators over the pages of a document, asked in any order, with any other uses of the document in between: the questions to each
of them are answered by the pages of the tree in order, and then by StopIteration. `I` are the states in which the document delivers its objects
(`Delivers`); the other uses keep them. -/
theorem C116_interleaved {store : Store} (hd : Delivers loc I store) (c : Option Bytes) (catalog : List (Bytes × Obj)) (n g : Nat)
    (ps : List (List (Bytes × Obj))) (hc : dictGet catalog b!"Pages" = some (.ref n g)) (ht : PageTree store n g ps)
    (hn : ∀ es, store n g = some (.dict es) → dictGet es b!"Type" = some (.name b!"Pages")) :
    ∃ F, ∀ fuel, F ≤ fuel → ∀ (schedule : List (Use σ)), (∀ m, .other m ∈ schedule → ∀ s, I s → I (m s)) → ∀ s, I s → ∀ i,
      (Reading.run loc fuel (.dict c catalog) ⟨s, fun _ => none, fun _ => []⟩ schedule).seen i =
        ((ps.map fun es => (.ok (some (asPage es)) : Res (Option Val))) ++ List.replicate (asks i schedule) (Except.ok none)).take (asks i schedule) := by
  cases ht with
  | page _ _ es h1 h2 =>
    have := hn es h1
    rw [h2] at this
    exact absurd this (by decide)
  | node _ _ es kids _ h1 h2 h3 h4 =>
    obtain ⟨vs, hv, hy⟩ := trees_owe hd h4
    have hk : EntryIs store es b!"Kids" (.arr vs) := by
      cases h3 with
      | direct _ h => exact ⟨_, h, hv⟩
      | indirect a b _ h h' => exact ⟨_, h, .ref a b _ _ h' (by simp) hv⟩
    have hr : EntryIs store catalog b!"Pages" (.dict (some b!"Pages") es) :=
      ⟨_, hc, .ref n g _ _ h1 (by simp) (.dict es _ (.typed _ h2 (by decide)))⟩
    obtain ⟨F1, o1⟩ := hy (.dict (some b!"Pages") es) 1 [] [] (owes_end _)
    rw [List.append_nil] at o1
    obtain ⟨F2, o2⟩ := owes_node (entry_reads hd hk) o1
    obtain ⟨A, hA⟩ := (entry_reads hd hr : Ev fun f => Gives I (entry loc f catalog b!"Pages") (.dict (some b!"Pages") es))
    refine ⟨max A F2, fun fuel hf schedule hm s hs i => ?_⟩
    have hstart : ∀ s, I s → ∃ it s', startPages loc fuel (.dict c catalog) s = (.ok it, s') ∧ I s' ∧ Owes loc I it.root F2 it.frames (ps.map asPage) := by
      intro s hs
      obtain ⟨e, i'⟩ := hA fuel (by omega) s hs
      refine ⟨⟨.dict (some b!"Pages") es, [.start (.dict (some b!"Pages") es)]⟩, (entry loc fuel catalog b!"Pages" s).2, ?_, i', o2⟩
      unfold startPages
      have : attr loc fuel (.dict c catalog) b!"Pages" s = entry loc fuel catalog b!"Pages" s := rfl
      rw [this]
      generalize entry loc fuel catalog b!"Pages" s = r at e
      obtain ⟨r1, r2⟩ := r
      cases e
      dsimp only
      rw [if_pos rfl]
    rw [run_waits (by omega) hstart schedule hm ⟨s, fun _ => none, fun _ => []⟩ (fun _ => ps.map asPage) hs (fun _ => .inl ⟨rfl, rfl⟩) i]
    unfold replies
    rw [List.map_map]
    rfl

/-- C116 from the bytes of a file: a document which was opened and serves this content; the other uses are resolving any of its objects. -/
theorem C116_file {filtered : List (Bytes × Obj) → Bytes → Res Bytes} {secure : Nat → Opened → Obj → Res Opened} {clamps : Bool} {file v : Bytes}
    {dict : List (Bytes × Obj)} {c : Option Bytes} {catalog : List (Bytes × Obj)} {content : Spec.Content}
    (h : Serves filtered secure clamps file v dict c catalog content)
    (n g : Nat) (node : List (Bytes × Obj)) (ps : List (List (Bytes × Obj))) (hpages : dictGet catalog b!"Pages" = some (.ref n g))
    (hnode : content n g = some (.dict node)) (htype : dictGet node b!"Type" = some (.name b!"Pages")) (htree : PageTree content n g ps) :
    ∃ F, ∀ fuel, F ≤ fuel → ∃ doc, openDocument filtered (secure fuel) clamps fuel file = .ok (doc, .dict c catalog) ∧
      ∃ F', ∀ fuel', F' ≤ fuel' → ∀ (schedule : List (Use St)),
        (∀ m, .other m ∈ schedule → ∃ a b o, content a b = some o ∧ m = fun s => (locate doc.env fuel a b s).2) → ∀ i,
        (Reading.run (locate doc.env fuel) fuel' (.dict c catalog) ⟨doc.st, fun _ => none, fun _ => []⟩ schedule).seen i =
          ((ps.map fun es => (.ok (some (asPage es)) : Res (Option Val))) ++ List.replicate (asks i schedule) (Except.ok none)).take (asks i schedule) := by
  obtain ⟨F, hF⟩ := h
  refine ⟨F, fun fuel hf => ?_⟩
  obtain ⟨doc, e, _, _, I, hI, hd⟩ := hF fuel hf
  refine ⟨doc, e, ?_⟩
  obtain ⟨F', hF'⟩ := C116_interleaved (hd fuel hf) c catalog n g ps hpages htree (fun es h => by
    rw [hnode] at h
    cases h
    exact htype)
  refine ⟨F', fun fuel' hf' schedule hm i => hF' fuel' hf' schedule (fun m h s hs => ?_) doc.st hI i⟩
  obtain ⟨a, b, o, ho, rfl⟩ := hm m h
  exact (hd fuel hf a b o s hs ho).2

/-- The two pages of the file of Props/Walk. -/
theorem sized_tree : PageTree (contentOf [sizedDraft]) 2 0
    [[(b!"Type", .name b!"Page"), (b!"Parent", .ref 2 0), (b!"MediaBox", .ref 5 0), (b!"Thumb", .ref 7 0)], [(b!"Type", .name b!"Page"), (b!"Parent", .ref 2 0)]] :=
  .node 2 0 _ [(3, 0), (4, 0)] _ rfl rfl (.direct _ _ rfl) (.cons 3 0 _ [_] _ (.page 3 0 _ rfl rfl) (.cons 4 0 _ [_] _ (.page 4 0 _ rfl rfl) .nil))

/-- The hypotheses of C116 are met: two iterators, asked in turn, with an object resolved in between; the first one is asked once more than there are pages. -/
example (secure : Opened → Obj → Res Opened) : ∃ F, ∀ fuel, F ≤ fuel → ∃ doc root, openDocument plain secure true fuel (writeFile [sizedDraft]) = .ok (doc, root) ∧
    ∃ F', ∀ fuel', F' ≤ fuel' →
      let w := Reading.run (locate doc.env fuel) fuel' root ⟨doc.st, fun _ => none, fun _ => []⟩
        [.next 0, .next 1, .other (fun s => (locate doc.env fuel 5 0 s).2), .next 0, .next 0]
      w.seen 0 = [.ok (some (asPage [(b!"Type", .name b!"Page"), (b!"Parent", .ref 2 0), (b!"MediaBox", .ref 5 0), (b!"Thumb", .ref 7 0)])),
        .ok (some (asPage [(b!"Type", .name b!"Page"), (b!"Parent", .ref 2 0)])), .ok none] ∧
      w.seen 1 = [.ok (some (asPage [(b!"Type", .name b!"Page"), (b!"Parent", .ref 2 0), (b!"MediaBox", .ref 5 0), (b!"Thumb", .ref 7 0)]))] := by
  obtain ⟨F, hF⟩ := C116_file (sized_serves plain secure) 2 0 _ _ rfl rfl rfl sized_tree
  refine ⟨F, fun fuel hf => ?_⟩
  obtain ⟨doc, e, F', hF'⟩ := hF fuel hf
  refine ⟨doc, _, e, F', fun fuel' hf' => ?_⟩
  have h := hF' fuel' hf' [.next 0, .next 1, .other (fun s => (locate doc.env fuel 5 0 s).2), .next 0, .next 0] (fun m hm => by
    simp at hm
    exact ⟨5, 0, _, rfl, hm⟩)
  exact ⟨h 0, h 1⟩

end PdfReader
