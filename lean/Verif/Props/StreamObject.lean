/-
  C150: stream objects show their current entries and data.
-/
import Verif.Spec.StreamObject
import Verif.Props.Lazy

namespace PdfReader

open Spec

/-- What is remembered was read, and is still right. -/
structure Remembers (x : Ext) (build : Obj → Res Val) (p : Pair) (seen : List Learnt) (s : StreamObject) : Prop where
  dict : s.dict = p.dict
  data : s.data = p.data
  entries : ∀ k v, assoc k s.cache = some v → p.value build k = .ok v ∧ Learnt.entry k ∈ seen
  decoded : ∀ b, s.decoded = some b → streamData x p.dict p.data = .ok b ∧ Learnt.decoded ∈ seen

theorem dictGet_del_ne {k j : Bytes} (h : k ≠ j) : ∀ raw : List (Bytes × Obj), dictGet (dictDel raw k) j = dictGet raw j
  | [] => rfl
  | (a, b) :: raw => by
    have ih := dictGet_del_ne h raw
    unfold dictDel at ih ⊢
    rw [List.filter_cons]
    by_cases e : a = k
    · subst e
      simp only [bne_self_eq_false, Bool.false_eq_true, if_false]
      rw [ih]
      conv => rhs; unfold dictGet
      rw [if_neg h]
    · have : (a != k) = true := by simpa using e
      simp only [this, if_true]
      unfold dictGet
      rw [ih]

theorem dictDel_absent {k : Bytes} : ∀ raw : List (Bytes × Obj), dictGet raw k = none → dictDel raw k = raw
  | [], _ => rfl
  | (a, b) :: raw, h => by
    unfold dictGet at h
    by_cases e : a = k
    · rw [if_pos e] at h; cases h
    · rw [if_neg e] at h
      have ih := dictDel_absent raw h
      unfold dictDel at ih ⊢
      have : (a != k) = true := by simpa using e
      rw [List.filter_cons]
      simp only [this, if_true, ih]

theorem remembers_more {x : Ext} {build : Obj → Res Val} {p : Pair} {seen more : List Learnt} {s : StreamObject} (h : Remembers x build p seen s) :
    Remembers x build p (more ++ seen) s :=
  ⟨h.dict, h.data, fun k v hk => ⟨(h.entries k v hk).1, List.mem_append_right _ (h.entries k v hk).2⟩,
    fun b hb => ⟨(h.decoded b hb).1, List.mem_append_right _ (h.decoded b hb).2⟩⟩

/-- Entries change: what was read of the others stays right. -/
theorem remembers_change {x : Ext} {build : Obj → Res Val} {p : Pair} {seen : List Learnt} {s : StreamObject} (h : Remembers x build p seen s) (k : Bytes)
    (d : List (Bytes × Obj)) (hd : ∀ j, k ≠ j → dictGet d j = dictGet p.dict j) (h1 : Learnt.entry k ∉ seen)
    (h2 : k = b!"Filter" ∨ k = b!"DecodeParms" → Learnt.decoded ∉ seen) : Remembers x build { p with dict := d } seen { s with dict := d } := by
  refine ⟨rfl, h.data, fun j v hj => ?_, fun b hb => ?_⟩
  · obtain ⟨a, c⟩ := h.entries j v hj
    refine ⟨?_, c⟩
    have hkj : k ≠ j := fun e => h1 (e ▸ c)
    unfold Pair.value at a ⊢
    dsimp only
    rw [hd j hkj]
    exact a
  · obtain ⟨a, c⟩ := h.decoded b hb
    refine ⟨?_, c⟩
    have hf : k ≠ b!"Filter" := fun e => h2 (Or.inl e) c
    have hp : k ≠ b!"DecodeParms" := fun e => h2 (Or.inr e) c
    unfold streamData at a ⊢
    dsimp only
    rw [hd _ hf, hd _ hp]
    exact a

theorem stream_step {x : Ext} {build : Obj → Res Val} {p : Pair} {seen : List Learnt} {s : StreamObject} (h : Remembers x build p seen s) (op : StreamOp)
    (hop : ∀ l ∈ seen, ¬ Spoils op l) : (s.step x build op).1 = (p.step x build op).1 ∧
    Remembers x build (p.step x build op).2 (p.learns x build op ++ seen) (s.step x build op).2 := by
  cases op with
  | attr k =>
    have hv : build ((dictGet s.dict k).getD .null) = p.value build k := by
      rw [h.dict]
      unfold Pair.value
      cases dictGet p.dict k <;> rfl
    unfold StreamObject.step StreamObject.attribute Pair.step Pair.learns
    dsimp only
    cases hc : assoc k s.cache with
    | some v =>
      refine ⟨congrArg StreamOut.value (h.entries k v hc).1.symm, ?_⟩
      exact remembers_more h
    | none =>
      dsimp only
      rw [hv]
      cases hp : p.value build k with
      | error e => exact ⟨rfl, h⟩
      | ok v =>
        refine ⟨rfl, h.dict, h.data, fun j w hj => ?_, fun b hb => ?_⟩
        · dsimp only at hj
          unfold assoc at hj
          dsimp only at hj
          by_cases e : k = j
          · rw [if_pos e] at hj
            cases hj
            subst e
            exact ⟨hp, List.mem_append_left _ (List.mem_singleton.mpr rfl)⟩
          · rw [if_neg e] at hj
            exact ⟨(h.entries j w hj).1, List.mem_append_right _ (h.entries j w hj).2⟩
        · exact ⟨(h.decoded b hb).1, List.mem_append_right _ (h.decoded b hb).2⟩
  | filtered =>
    unfold StreamObject.step StreamObject.filteredData Pair.step Pair.learns
    dsimp only
    cases hc : s.decoded with
    | some b => exact ⟨congrArg StreamOut.bytes (h.decoded b hc).1.symm, remembers_more h⟩
    | none =>
      dsimp only
      rw [h.dict, h.data]
      cases hp : streamData x p.dict p.data with
      | error e => exact ⟨rfl, h⟩
      | ok b =>
        refine ⟨rfl, rfl, rfl, fun j w hj => ⟨(h.entries j w hj).1, List.mem_append_right _ (h.entries j w hj).2⟩, fun c hb => ?_⟩
        cases hb
        exact ⟨hp, List.mem_append_left _ (List.mem_singleton.mpr rfl)⟩
  | item k =>
    unfold StreamObject.step Pair.step Pair.raw Pair.learns
    dsimp only
    rw [h.dict]
    cases dictGet p.dict k <;> exact ⟨rfl, h⟩
  | get k =>
    unfold StreamObject.step Pair.step Pair.raw Pair.learns
    dsimp only
    rw [h.dict]
    cases dictGet p.dict k <;> exact ⟨rfl, h⟩
  | data => exact ⟨congrArg (fun b => StreamOut.bytes (.ok b)) h.data, h⟩
  | length => exact ⟨congrArg (fun b : Bytes => StreamOut.num b.length) h.data, h⟩
  | set k o =>
    refine ⟨rfl, ?_⟩
    have := remembers_change h k (dictSet p.dict k o) (fun j hj => dictGet_set_ne o hj _) (fun hk => hop _ hk rfl) (fun hk hd => hop _ hd hk)
    rw [← h.dict] at this
    unfold StreamObject.step Pair.step Pair.learns
    rw [← h.dict]
    exact this
  | del k =>
    have := remembers_change h k (dictDel p.dict k) (fun j hj => dictGet_del_ne hj _) (fun hk => hop _ hk rfl) (fun hk hd => hop _ hd hk)
    unfold StreamObject.step Pair.step Pair.raw Pair.learns
    dsimp only
    rw [h.dict]
    cases hg : dictGet p.dict k with
    | some o => exact ⟨rfl, this⟩
    | none =>
      refine ⟨rfl, ?_⟩
      have e := dictDel_absent _ hg
      unfold dictDel at e
      rw [e]
      exact h
  | setData b =>
    refine ⟨rfl, h.dict, rfl, h.entries, fun c hc => ?_⟩
    exact absurd trivial (hop _ (h.decoded c hc).2)

/-- C150: for every stream and every history in which nothing is changed after it was read (failures do not count), all operations give what they
would give if nothing was remembered. -/
theorem C150_current_partial (x : Ext) (build : Obj → Res Val) (d : List (Bytes × Obj)) (data : Bytes) (ops : List StreamOp)
    (h : Timely x build ⟨d, data⟩ [] ops) : (StreamObject.run x build { dict := d, data := data } ops).1 = (Pair.run x build ⟨d, data⟩ ops).1 ∧
    (StreamObject.run x build { dict := d, data := data } ops).2.dict = (Pair.run x build ⟨d, data⟩ ops).2.dict ∧
    (StreamObject.run x build { dict := d, data := data } ops).2.data = (Pair.run x build ⟨d, data⟩ ops).2.data := by
  have key : ∀ (ops : List StreamOp) (p : Pair) (seen : List Learnt) (s : StreamObject), Remembers x build p seen s → Timely x build p seen ops →
      (StreamObject.run x build s ops).1 = (Pair.run x build p ops).1 ∧ (StreamObject.run x build s ops).2.dict = (Pair.run x build p ops).2.dict ∧
      (StreamObject.run x build s ops).2.data = (Pair.run x build p ops).2.data := by
    intro ops
    induction ops with
    | nil => exact fun p seen s hs _ => ⟨rfl, hs.dict, hs.data⟩
    | cons op ops ih =>
      intro p seen s hs ht
      obtain ⟨h1, h2⟩ := stream_step hs op ht.1
      obtain ⟨i1, i2, i3⟩ := ih _ _ _ h2 ht.2
      unfold StreamObject.run Pair.run
      dsimp only
      rw [h1, i1]
      exact ⟨rfl, i2, i3⟩
  exact key ops _ [] _ ⟨rfl, rfl, fun k v hk => (by cases hk), fun b hb => (by cases hb)⟩ h

/-- C150: entries as they are written, the encoded data and their length are the current ones after every history. -/
theorem C150_raw (x : Ext) (build : Obj → Res Val) (d : List (Bytes × Obj)) (data : Bytes) (ops : List StreamOp) (op : StreamOp)
    (hop : (∀ k, op ≠ .attr k) ∧ op ≠ .filtered) :
    ((StreamObject.run x build { dict := d, data := data } ops).2.step x build op).1 = ((Pair.run x build ⟨d, data⟩ ops).2.step x build op).1 := by
  have one : ∀ (s : StreamObject) (p : Pair) (op : StreamOp), s.dict = p.dict → s.data = p.data →
      (s.step x build op).2.dict = (p.step x build op).2.dict ∧ (s.step x build op).2.data = (p.step x build op).2.data ∧
      ((∀ k, op ≠ .attr k) ∧ op ≠ .filtered → (s.step x build op).1 = (p.step x build op).1) := by
    intro s p op hd hb
    unfold StreamObject.step Pair.step
    cases op with
    | attr k =>
      dsimp only
      unfold StreamObject.attribute
      refine ⟨?_, ?_, fun h => absurd rfl (h.1 k)⟩
      · split
        · exact hd
        · split <;> exact hd
      · split
        · exact hb
        · split <;> exact hb
    | filtered =>
      dsimp only
      unfold StreamObject.filteredData
      refine ⟨?_, ?_, fun h => absurd rfl h.2⟩
      · split
        · exact hd
        · split <;> exact hd
      · split
        · exact hb
        · split <;> exact hb
    | item k =>
      dsimp only
      unfold Pair.raw
      refine ⟨?_, ?_, fun _ => ?_⟩
      · cases dictGet s.dict k <;> exact hd
      · cases dictGet s.dict k <;> exact hb
      · rw [hd]
        cases dictGet p.dict k <;> rfl
    | get k =>
      refine ⟨hd, hb, fun _ => ?_⟩
      dsimp only
      unfold Pair.raw
      rw [hd]
      cases dictGet p.dict k <;> rfl
    | data => exact ⟨hd, hb, fun _ => by dsimp only; rw [hb]⟩
    | length => exact ⟨hd, hb, fun _ => by dsimp only; rw [hb]⟩
    | set k o => exact ⟨by dsimp only; rw [hd], hb, fun _ => rfl⟩
    | del k =>
      dsimp only
      unfold Pair.raw
      rw [hd]
      cases hg : dictGet p.dict k with
      | some o => exact ⟨rfl, hb, fun _ => rfl⟩
      | none => exact ⟨hd.trans (dictDel_absent _ hg).symm, hb, fun _ => rfl⟩
    | setData b => exact ⟨hd, rfl, fun _ => rfl⟩
  have all : ∀ (ops : List StreamOp) (s : StreamObject) (p : Pair), s.dict = p.dict → s.data = p.data →
      (StreamObject.run x build s ops).2.dict = (Pair.run x build p ops).2.dict ∧ (StreamObject.run x build s ops).2.data = (Pair.run x build p ops).2.data := by
    intro ops
    induction ops with
    | nil => exact fun s p h1 h2 => ⟨h1, h2⟩
    | cons op ops ih =>
      intro s p h1 h2
      obtain ⟨a, b, _⟩ := one s p op h1 h2
      exact ih _ _ a b
  obtain ⟨a, b⟩ := all ops { dict := d, data := data } ⟨d, data⟩ rfl rfl
  exact (one _ _ op a b).2.2 hop

/-- C150: what was decoded once stays: after every history, `filtered` gives the bytes of the first time it succeeded. -/
theorem C150_filtered_stays (x : Ext) (build : Obj → Res Val) (s : StreamObject) (b : Bytes) (h : (s.filteredData x).1 = .ok b) (ops : List StreamOp) :
    ((StreamObject.run x build (s.filteredData x).2 ops).2.filteredData x).1 = .ok b := by
  have h0 : (s.filteredData x).2.decoded = some b := by
    unfold StreamObject.filteredData at h ⊢
    cases hc : s.decoded with
    | some c => rw [hc] at h; injection h with h; subst h; exact hc
    | none =>
      rw [hc] at h
      dsimp only at h ⊢
      cases hs : streamData x s.dict s.data with
      | error e => rw [hs] at h; cases h
      | ok c => rw [hs] at h; injection h with h; subst h; rfl
  have keep : ∀ (ops : List StreamOp) (t : StreamObject), t.decoded = some b → (StreamObject.run x build t ops).2.decoded = some b := by
    intro ops
    induction ops with
    | nil => exact fun t ht => ht
    | cons op ops ih =>
      intro t ht
      refine ih _ ?_
      unfold StreamObject.step
      cases op with
      | attr k =>
        dsimp only
        unfold StreamObject.attribute
        split
        · exact ht
        · split <;> exact ht
      | filtered =>
        dsimp only
        unfold StreamObject.filteredData
        rw [ht]
        exact ht
      | item k => dsimp only; cases dictGet t.dict k <;> exact ht
      | del k => dsimp only; cases dictGet t.dict k <;> exact ht
      | _ => exact ht
  have h1 := keep ops _ h0
  unfold StreamObject.filteredData
  unfold StreamObject.filteredData at h1
  rw [h1]

/-- Filters which are not needed here. -/
def noFilters : Ext := ⟨fun _ => none, fun _ _ => .error .valueError, fun _ => .error .valueError⟩

/-- A document in which object 8 is the number 5. -/
def fiveAt8 : Obj → Res Val
  | .ref 8 0 => .ok (.atom (.int 5))
  | o => .ok (.atom o)

/-- The hypothesis is met by a history of changes and of readings, with one which fails and is done again. -/
example : Timely noFilters fiveAt8 ⟨[(b!"Length", .ref 8 0), (b!"Filter", .name b!"Crypt")], b!"41>"⟩ []
    [.filtered, .set b!"Filter" (.name b!"AHx"), .setData b!"42>", .filtered, .attr b!"Length", .item b!"Length", .set b!"X" .null, .get b!"X"] := by
  have e : streamData noFilters [(b!"Length", .ref 8 0), (b!"Filter", .name b!"Crypt")] b!"41>" = .error .notImplemented := by decide
  unfold Timely
  refine ⟨by simp, ?_⟩
  have e1 : Pair.learns noFilters fiveAt8 ⟨[(b!"Length", .ref 8 0), (b!"Filter", .name b!"Crypt")], b!"41>"⟩ .filtered = [] := by
    unfold Pair.learns; dsimp only; rw [e]
  rw [e1]
  refine ⟨by simp, by simp [Pair.learns], by simp [Pair.learns], ?_, ?_, ?_, ?_, trivial⟩
  · exact fun l _ => id
  · exact fun l _ => id
  · intro l hl
    have hl : l ∈ [Learnt.entry b!"Length", .decoded] := hl
    rcases List.mem_cons.mp hl with rfl | hl
    · show ¬ b!"X" = b!"Length"
      decide
    · rw [List.mem_singleton.mp hl]
      show ¬ (b!"X" = b!"Filter" ∨ b!"X" = b!"DecodeParms")
      decide
  · exact fun l _ => id

/-- C150 is false: new data are not decoded if the old ones were. -/
theorem C150_data_counterexample :
    (StreamObject.run noFilters fiveAt8 { dict := [(b!"Length", .int 3)], data := b!"old" } [.filtered, .setData b!"new", .data, .filtered]).1 =
      [.bytes (.ok b!"old"), .done (.ok ()), .bytes (.ok b!"new"), .bytes (.ok b!"old")] := rfl

/-- C150 is false: an entry which was missing when it was first read as an attribute stays missing. -/
theorem C150_entry_counterexample :
    (StreamObject.run noFilters fiveAt8 { dict := [(b!"Length", .int 3)], data := b!"old" } [.attr b!"Name", .set b!"Name" (.int 1), .item b!"Name", .attr b!"Name"]).1 =
      [.value (.ok (.atom .null)), .done (.ok ()), .object (.ok (.int 1)), .value (.ok (.atom .null))] := rfl

/-- C150 is false: an entry which is a reference is resolved as an attribute, and not as an item. -/
theorem C150_item_counterexample :
    (StreamObject.run noFilters fiveAt8 { dict := [(b!"Length", .ref 8 0)], data := b!"hello" } [.attr b!"Length", .item b!"Length", .get b!"Length"]).1 =
      [.value (.ok (.atom (.int 5))), .object (.ok (.ref 8 0)), .object (.ok (.ref 8 0))] := rfl

end PdfReader
