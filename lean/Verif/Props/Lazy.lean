/-
  C47: dictionary objects cache what they build.
-/
import Verif.Spec.Lazy

namespace PdfReader

open Spec

/-- Cached values are the values of the entries, and were read before. -/
def Coherent (build : Obj → Res Val) (before : List DictOp) (d : LazyDict) : Prop :=
  ∀ k v, assoc k d.cache = some v → readKey build d.raw k = .ok v ∧ ∃ p ∈ before, ReadsKey p k

theorem item_read {build : Obj → Res Val} {before : List DictOp} {d : LazyDict} (h : Coherent build before d) (k : Bytes) :
    (d.item build k).1 = readKey build d.raw k ∧ (d.item build k).2.raw = d.raw ∧
    ∀ op, ReadsKey op k → Coherent build (op :: before) (d.item build k).2 := by
  have hmono : ∀ op, Coherent build (op :: before) d := fun op j v hj => ⟨(h j v hj).1, (h j v hj).2.imp fun p hp => ⟨List.mem_cons_of_mem _ hp.1, hp.2⟩⟩
  unfold LazyDict.item
  cases hc : assoc k d.cache with
  | some v => exact ⟨(h k v hc).1.symm, rfl, fun op _ => hmono op⟩
  | none =>
    dsimp only
    unfold readKey
    cases hr : dictGet d.raw k with
    | none => exact ⟨rfl, rfl, fun op _ => hmono op⟩
    | some o =>
      dsimp only
      cases hb : build o with
      | error e => exact ⟨rfl, rfl, fun op _ => hmono op⟩
      | ok v =>
        refine ⟨rfl, rfl, fun op hop j w hj => ?_⟩
        dsimp only at hj ⊢
        unfold assoc at hj
        dsimp only at hj
        by_cases e : k = j
        · rw [if_pos e] at hj
          cases hj
          subst e
          refine ⟨?_, op, List.mem_cons_self, hop⟩
          unfold readKey
          rw [hr]
          exact hb
        · rw [if_neg e] at hj
          exact hmono op j w hj

theorem itemsFor_read {build : Obj → Res Val} {before : List DictOp} (op : DictOp) (hop : ∀ k, ReadsKey op k) : ∀ (ks : List Bytes) (d : LazyDict),
    Coherent build (op :: before) d → (LazyDict.itemsFor build ks d).1 = readAll build d.raw ks ∧ (LazyDict.itemsFor build ks d).2.raw = d.raw ∧
      Coherent build (op :: before) (LazyDict.itemsFor build ks d).2
  | [], d, h => ⟨rfl, rfl, h⟩
  | k :: ks, d, h => by
    obtain ⟨h1, h2, h3⟩ := item_read h k
    have h3' : Coherent build (op :: before) (d.item build k).2 := fun j v hj => by
      obtain ⟨a, p, hp, hr⟩ := h3 op (hop k) j v hj
      rcases List.mem_cons.mp hp with rfl | hp
      · exact ⟨a, _, List.mem_cons_self, hr⟩
      · exact ⟨a, p, hp, hr⟩
    unfold LazyDict.itemsFor readAll
    rw [← h1]
    generalize d.item build k = r at h1 h2 h3'
    obtain ⟨r1, d1⟩ := r
    dsimp only at h1 h2 h3' ⊢
    cases r1 with
    | error e => exact ⟨rfl, h2, h3'⟩
    | ok v =>
      dsimp only
      obtain ⟨i1, i2, i3⟩ := itemsFor_read op hop ks d1 h3'
      rw [h2] at i1 i2
      rw [← i1]
      generalize LazyDict.itemsFor build ks d1 = r at i1 i2 i3
      obtain ⟨r2, d2⟩ := r
      cases r2 with
      | error e => exact ⟨rfl, i2, i3⟩
      | ok vs => exact ⟨rfl, i2, i3⟩

theorem dictGet_set_ne {k j : Bytes} (o : Obj) (h : k ≠ j) : ∀ raw : List (Bytes × Obj), dictGet (dictSet raw k o) j = dictGet raw j
  | [] => by unfold dictSet dictGet; rw [if_neg h]; rfl
  | (a, b) :: raw => by
    unfold dictSet
    by_cases e : a = k
    · rw [if_pos e]
      unfold dictGet
      rw [if_neg h, if_neg (by rw [e]; exact h)]
    · rw [if_neg e]
      unfold dictGet
      rw [dictGet_set_ne o h raw]

theorem step_plain {build : Obj → Res Val} {before : List DictOp} {d : LazyDict} (h : Coherent build before d) (op : DictOp)
    (hop : Reading op ∨ ∃ k o, op = .set k o ∧ ∀ p ∈ before, ¬ ReadsKey p k) :
    (d.step build op).1 = (plainStep build d.raw op).1 ∧ (d.step build op).2.raw = (plainStep build d.raw op).2 ∧
    Coherent build (op :: before) (d.step build op).2 := by
  have hmono : ∀ op, Coherent build (op :: before) d := fun op j v hj => ⟨(h j v hj).1, (h j v hj).2.imp fun p hp => ⟨List.mem_cons_of_mem _ hp.1, hp.2⟩⟩
  rcases hop with hop | ⟨k, o, rfl, hk⟩
  · cases op with
    | item k =>
      obtain ⟨h1, h2, h3⟩ := item_read h k
      exact ⟨congrArg DictOut.value h1, h2, h3 _ rfl⟩
    | get k =>
      obtain ⟨h1, h2, h3⟩ := item_read h k
      have e : (d.get build k).1 = orNull (d.item build k).1 ∧ (d.get build k).2 = (d.item build k).2 := by
        unfold LazyDict.get orNull
        generalize d.item build k = r
        obtain ⟨r1, r2⟩ := r
        cases r1 with
        | ok v => exact ⟨rfl, rfl⟩
        | error e => cases e <;> exact ⟨rfl, rfl⟩
      refine ⟨congrArg DictOut.value (e.1.trans (by rw [h1])), ?_, ?_⟩
      · show (d.get build k).2.raw = _
        rw [e.2]
        exact h2
      · show Coherent build _ (d.get build k).2
        rw [e.2]
        exact h3 _ rfl
    | keys => exact ⟨rfl, rfl, hmono _⟩
    | values =>
      obtain ⟨h1, h2, h3⟩ := itemsFor_read (before := before) .values (fun _ => trivial) (d.raw.map (·.1)) d (hmono _)
      refine ⟨?_, h2, h3⟩
      show DictOut.values _ = DictOut.values _
      rw [h1]
    | items =>
      obtain ⟨h1, h2, h3⟩ := itemsFor_read (before := before) .items (fun _ => trivial) (d.raw.map (·.1)) d (hmono _)
      refine ⟨?_, h2, h3⟩
      show DictOut.items _ = DictOut.items _
      rw [h1]
    | contains k => exact ⟨rfl, rfl, hmono _⟩
    | _ => exact absurd hop id
  · refine ⟨rfl, rfl, fun j v hj => ?_⟩
    obtain ⟨h1, p, hp, hr⟩ := h j v hj
    have hkj : k ≠ j := fun e => hk p hp (by rw [e]; exact hr)
    refine ⟨?_, p, List.mem_cons_of_mem _ hp, hr⟩
    unfold readKey at h1 ⊢
    show (match dictGet (dictSet d.raw k o) j with | none => (.error .keyError : Res Val) | some o => build o) = _
    rw [dictGet_set_ne o hkj]
    exact h1

/-- C47: every history of reads, and of writes to keys which have not been read, gives what a dictionary without a cache would give. -/
theorem C47_coherent_partial (build : Obj → Res Val) (raw : List (Bytes × Obj)) (ops : List DictOp) (h : NoLateWrite [] ops) :
    (LazyDict.run build { raw := raw } ops).1 = (plainRun build raw ops).1 ∧ (LazyDict.run build { raw := raw } ops).2.raw = (plainRun build raw ops).2 := by
  have key : ∀ (ops before : List DictOp) (d : LazyDict), Coherent build before d → NoLateWrite before ops →
      (LazyDict.run build d ops).1 = (plainRun build d.raw ops).1 ∧ (LazyDict.run build d ops).2.raw = (plainRun build d.raw ops).2 := by
    intro ops
    induction ops with
    | nil => exact fun _ _ _ _ => ⟨rfl, rfl⟩
    | cons op ops ih =>
      intro before d hc hn
      obtain ⟨h1, h2, h3⟩ := step_plain hc op hn.1
      obtain ⟨i1, i2⟩ := ih (op :: before) _ h3 hn.2
      rw [h2] at i1 i2
      unfold LazyDict.run plainRun
      dsimp only
      rw [h1, i1]
      exact ⟨rfl, i2⟩
  exact key ops [] { raw := raw } (fun k v hv => by cases hv) h

/-- A history with reads of all kinds and writes before them. -/
example : NoLateWrite [] [.get b!"A", .set b!"B" (.int 2), .item b!"B", .keys, .items] := by
  refine ⟨Or.inl trivial, Or.inr ⟨_, _, rfl, ?_⟩, Or.inl trivial, Or.inl trivial, Or.inl trivial, trivial⟩
  intro p hp
  rw [List.mem_singleton] at hp
  subst hp
  show ¬ b!"A" = b!"B"
  decide

/-- Built keys are cached; each was built once. -/
def Once (raw : List (Bytes × Obj)) (d : LazyDict) : Prop := d.raw = raw ∧ d.built.Nodup ∧ ∀ k ∈ d.built, (assoc k d.cache).isSome

theorem item_once {build : Obj → Res Val} {raw : List (Bytes × Obj)} (hb : ∀ k o, dictGet raw k = some o → ∃ v, build o = .ok v) {d : LazyDict}
    (h : Once raw d) (k : Bytes) : Once raw (d.item build k).2 := by
  unfold LazyDict.item
  cases hc : assoc k d.cache with
  | some v => exact h
  | none =>
    dsimp only
    cases hr : dictGet d.raw k with
    | none => exact h
    | some o =>
      dsimp only
      obtain ⟨v, hv⟩ := hb k o (by rw [← h.1]; exact hr)
      rw [hv]
      refine ⟨h.1, ?_, ?_⟩
      · show (k :: d.built).Nodup
        refine List.nodup_cons.mpr ⟨fun hk => ?_, h.2.1⟩
        have := h.2.2 k hk
        rw [hc] at this
        cases this
      · intro j hj
        show (assoc j ((k, v) :: d.cache)).isSome
        unfold assoc
        dsimp only
        by_cases e : k = j
        · rw [if_pos e]; rfl
        · rw [if_neg e]
          rcases List.mem_cons.mp hj with rfl | hj
          · exact absurd rfl e
          · exact h.2.2 j hj

theorem itemsFor_once {build : Obj → Res Val} {raw : List (Bytes × Obj)} (hb : ∀ k o, dictGet raw k = some o → ∃ v, build o = .ok v) :
    ∀ (ks : List Bytes) (d : LazyDict), Once raw d → Once raw (LazyDict.itemsFor build ks d).2
  | [], _, h => h
  | k :: ks, d, h => by
    have h1 := item_once hb h k
    unfold LazyDict.itemsFor
    generalize d.item build k = r at h1
    obtain ⟨r1, d1⟩ := r
    cases r1 with
    | error e => exact h1
    | ok v =>
      dsimp only
      have h2 := itemsFor_once hb ks d1 h1
      generalize LazyDict.itemsFor build ks d1 = r at h2
      obtain ⟨r2, d2⟩ := r
      cases r2 <;> exact h2

/-- C47: however often an object is read, each of its entries is built at most once. -/
theorem C47_once (build : Obj → Res Val) (raw : List (Bytes × Obj)) (hb : ∀ k o, dictGet raw k = some o → ∃ v, build o = .ok v) (ops : List DictOp)
    (h : ∀ op ∈ ops, Reading op) : (LazyDict.run build { raw := raw } ops).2.built.Nodup := by
  have key : ∀ (ops : List DictOp) (d : LazyDict), Once raw d → (∀ op ∈ ops, Reading op) → Once raw (LazyDict.run build d ops).2 := by
    intro ops
    induction ops with
    | nil => exact fun d hd _ => hd
    | cons op ops ih =>
      intro d hd h
      have hs : Once raw (d.step build op).2 := by
        have hop := h op List.mem_cons_self
        cases op with
        | item k => exact item_once hb hd k
        | get k =>
          have h1 := item_once hb hd k
          show Once raw (d.get build k).2
          unfold LazyDict.get
          generalize d.item build k = r at h1
          obtain ⟨r1, r2⟩ := r
          cases r1 with
          | ok v => exact h1
          | error e => cases e <;> exact h1
        | keys => exact hd
        | values => exact itemsFor_once hb _ d hd
        | items => exact itemsFor_once hb _ d hd
        | contains k => exact hd
        | _ => exact absurd hop id
      exact ih _ hs fun op ho => h op (List.mem_cons_of_mem _ ho)
  exact (key ops { raw := raw } ⟨rfl, List.nodup_nil, fun k hk => by cases hk⟩ h).2.1

example : ∀ k o, dictGet [(b!"A", .int 1)] k = some o → ∃ v, (fun o => (.ok (.atom o) : Res Val)) o = .ok v := fun _ _ _ => ⟨_, rfl⟩

/-- C47 is false for writes after a read: whatever is written, the value read before is read again. -/
theorem C47_write_counterexample (build : Obj → Res Val) (d : LazyDict) (k : Bytes) (v : Val) (o : Obj) (h : (d.item build k).1 = .ok v) :
    (((d.item build k).2.step build (.set k o)).2.item build k).1 = .ok v := by
  have hc : assoc k (d.item build k).2.cache = some v := by
    unfold LazyDict.item at h ⊢
    cases hc : assoc k d.cache with
    | some w =>
      rw [hc] at h
      injection h with h
      subst h
      exact hc
    | none =>
      rw [hc] at h
      dsimp only at h ⊢
      cases hr : dictGet d.raw k with
      | none => rw [hr] at h; cases h
      | some o =>
        rw [hr] at h
        dsimp only at h ⊢
        cases hb : build o with
        | error e => rw [hb] at h; cases h
        | ok w =>
          rw [hb] at h
          injection h with h
          subst h
          show assoc k ((k, w) :: d.cache) = some w
          unfold assoc
          exact if_pos rfl
  show (LazyDict.item build { (d.item build k).2 with raw := dictSet (d.item build k).2.raw k o } k).1 = _
  unfold LazyDict.item
  dsimp only
  unfold LazyDict.item at hc
  rw [hc]

/-- C47 is false for deletions: `del` of a key which was not read raises KeyError, and of a key which was read it leaves the entry. -/
theorem C47_delete_counterexample (build : Obj → Res Val) (hb : ∀ o, build o = .ok (.atom o)) :
    (LazyDict.run build { raw := [(b!"A", .int 1)] } [.del b!"A"]).1 = [.done (.error .keyError)] ∧
    (LazyDict.run build { raw := [(b!"A", .int 1)] } [.get b!"A", .del b!"A", .contains b!"A", .get b!"A"]).1 =
      [.value (.ok (.atom (.int 1))), .done (.ok ()), .bool true, .value (.ok (.atom (.int 1)))] ∧
    (plainRun build [(b!"A", .int 1)] [.get b!"A", .del b!"A", .contains b!"A", .get b!"A"]).1 =
      [.value (.ok (.atom (.int 1))), .done (.ok ()), .bool false, .value (.ok (.atom .null))] := by
  obtain rfl : build = fun o => .ok (.atom o) := funext hb
  exact ⟨rfl, rfl, rfl⟩

/-- C47: deleting a key has no influence on the other keys: their values are neither lost nor built again. -/
theorem C47_delete_others (build : Obj → Res Val) (d : LazyDict) (k j : Bytes) (h : j ≠ k) :
    ((d.step build (.del k)).2.item build j).1 = (d.item build j).1 ∧
    (((d.step build (.del k)).2.item build j).2.built = (d.step build (.del k)).2.built ↔ (d.item build j).2.built = d.built) := by
  have hc : ∀ es : List (Bytes × Val), assoc j (cacheDel es k) = assoc j es := by
    intro es
    induction es with
    | nil => rfl
    | cons e es ih =>
      obtain ⟨a, v⟩ := e
      unfold cacheDel at ih ⊢
      rw [List.filter_cons]
      by_cases ek : a = k
      · subst ek
        have : (a != a) = false := by simp
        dsimp only
        rw [this, if_neg (by simp), ih]
        show _ = if a = j then some v else assoc j es
        rw [if_neg (Ne.symm h)]
      · have : (a != k) = true := by simpa using ek
        dsimp only
        rw [this, if_pos rfl]
        show (if a = j then some v else assoc j _) = if a = j then some v else assoc j es
        rw [ih]
  unfold LazyDict.step
  dsimp only
  cases hk : assoc k d.cache with
  | none => exact ⟨rfl, Iff.rfl⟩
  | some w =>
    dsimp only
    unfold LazyDict.item
    dsimp only
    rw [hc]
    cases assoc j d.cache with
    | some v => exact ⟨rfl, by simp⟩
    | none =>
      dsimp only
      cases dictGet d.raw j with
      | none => exact ⟨rfl, by simp⟩
      | some o =>
        dsimp only
        cases build o with
        | error e => exact ⟨rfl, by simp⟩
        | ok v => exact ⟨rfl, by simp⟩

/-- C47 is false after `pop`: the key is gone, and can still be read; and `pop` with a default raises TypeError for a missing key. -/
theorem C47_pop_counterexample (build : Obj → Res Val) (hb : ∀ o, build o = .ok (.atom o)) :
    (LazyDict.run build { raw := [(b!"A", .int 1)] } [.pop b!"A", .contains b!"A", .get b!"A"]).1 =
      [.value (.ok (.atom (.int 1))), .bool false, .value (.ok (.atom (.int 1)))] ∧
    (LazyDict.run build { raw := [(b!"A", .int 1)] } [.popDefault b!"B"]).1 = [.value (.error .typeError)] ∧
    (plainRun build [(b!"A", .int 1)] [.pop b!"A", .contains b!"A", .get b!"A"]).1 =
      [.value (.ok (.atom (.int 1))), .bool false, .value (.ok (.atom .null))] := by
  obtain rfl : build = fun o => .ok (.atom o) := funext hb
  exact ⟨rfl, rfl, rfl⟩

end PdfReader
