/-
  C79: the data of a stream are decoded by the filters of its dictionary.
-/
import Verif.Model.StreamData
import Verif.Props.Filters

namespace PdfReader

open Spec

/-- The filters of a stream with their parameters, in the order in which they are applied. The entries may be written directly or be
references to `store`. -/
inductive FiltersAre (store : Nat → Nat → Option Obj) : Option Obj → Option Obj → List (Bytes × List (Bytes × Obj)) → Prop
  | none : FiltersAre store none none []
  | one (n : Bytes) (ps : List (Bytes × Obj)) : n ≠ [] → FiltersAre store (some (.name n)) (some (.dict ps)) [(n, ps)]
  | plain (n : Bytes) : n ≠ [] → FiltersAre store (some (.name n)) none [(n, [])]
  | arrays (fs : List (Bytes × List (Bytes × Obj))) : FiltersAre store (some (.arr (fs.map fun f => .name f.1))) (some (.arr (fs.map fun f => .dict f.2))) fs
  | array (ns : List Bytes) : FiltersAre store (some (.arr (ns.map Obj.name))) none (ns.map fun n => (n, []))
  | indirectFilter (n g : Nat) (o : Obj) (p : Option Obj) (fs : List (Bytes × List (Bytes × Obj))) : store n g = some o →
      FiltersAre store (some o) p fs → FiltersAre store (some (.ref n g)) p fs
  | indirectParms (n g : Nat) (o : Obj) (f : Option Obj) (fs : List (Bytes × List (Bytes × Obj))) : store n g = some o →
      FiltersAre store f (some o) fs → FiltersAre store f (some (.ref n g)) fs

/-- The integer under a key of a parameter dictionary. -/
def intEntry (ps : List (Bytes × Obj)) (k : Bytes) : Option Int :=
  match ps.find? (fun e => e.1 == k) with
  | some (_, .int n) => some n
  | _ => none

theorem intEntry_eq (k : Bytes) : ∀ ps : List (Bytes × Obj), intParam ps k = intEntry ps k
  | [] => rfl
  | (k', v) :: ps => by
    have ih := intEntry_eq k ps
    unfold intParam intEntry at *
    unfold dictGet
    rw [List.find?_cons]
    dsimp only
    by_cases e : k' = k
    · rw [if_pos e, beq_iff_eq.mpr e]
      cases v <;> rfl
    · rw [if_neg e, beq_eq_false_iff_ne.mpr e]
      exact ih

/-- The filters, each with its own parameters, one after the other. -/
def decodeChain (x : Ext) : List (Bytes × List (Bytes × Obj)) → Bytes → Res Bytes
  | [], data => .ok data
  | (n, ps) :: fs, data =>
    match applyFilter x n data (.dict (intEntry ps b!"Predictor") (intEntry ps b!"Columns")) with
    | .error e => .error e
    | .ok d => decodeChain x fs d

theorem namesOf_names : ∀ ns : List Bytes, namesOf (ns.map Obj.name) = some ns
  | [] => rfl
  | n :: ns => by
    show (namesOf (ns.map Obj.name)).map (n :: ·) = _
    rw [namesOf_names ns]
    rfl

theorem applyFilters_plain (x : Ext) : ∀ (ns : List Bytes) (data : Bytes), applyFilters x (.dict none none) ns data = decodeChain x (ns.map fun n => (n, [])) data
  | [], _ => rfl
  | n :: ns, data => by
    show (match applyFilter x n data (.dict none none) with | .error e => (.error e : Res Bytes) | .ok d => applyFilters x (.dict none none) ns d) =
      match applyFilter x n data (.dict none none) with | .error e => .error e | .ok d => decodeChain x (ns.map fun n => (n, [])) d
    cases applyFilter x n data (.dict none none) with
    | error e => rfl
    | ok d => exact applyFilters_plain x ns d

/-- C79, what holds: no filter; one filter given as a name, with or without parameters; any number of filters without parameters. -/
theorem C79_direct_partial (x : Ext) (d : List (Bytes × Obj)) (data : Bytes) :
    (dictGet d b!"Filter" = none → streamData x d data = decodeChain x [] data) ∧
    (∀ (n : Bytes) (ps : List (Bytes × Obj)), n ≠ [] → dictGet d b!"Filter" = some (.name n) → dictGet d b!"DecodeParms" = some (.dict ps) →
      streamData x d data = decodeChain x [(n, ps)] data) ∧
    (∀ n : Bytes, n ≠ [] → dictGet d b!"Filter" = some (.name n) → dictGet d b!"DecodeParms" = none → streamData x d data = decodeChain x [(n, [])] data) ∧
    (∀ ns : List Bytes, dictGet d b!"Filter" = some (.arr (ns.map Obj.name)) → dictGet d b!"DecodeParms" = none →
      streamData x d data = decodeChain x (ns.map fun n => (n, [])) data) := by
  refine ⟨fun h => ?_, fun n ps hn h1 h2 => ?_, fun n hn h1 h2 => ?_, fun ns h1 h2 => ?_⟩
  · unfold streamData
    rw [h]
    rfl
  · unfold streamData
    rw [h1, h2]
    show applyFilterMulti x (if n = [] then .falsy else .name n) data _ = _
    rw [if_neg hn]
    show (match applyFilter x n data _ with | .error e => (.error e : Res Bytes) | .ok d => applyFilters x _ [] d) = match applyFilter x n data _ with | .error e => .error e | .ok d => decodeChain x [] d
    have e : paramsEntry (some (.dict ps)) = .dict (intEntry ps b!"Predictor") (intEntry ps b!"Columns") := by
      rw [← intEntry_eq, ← intEntry_eq]
      rfl
    rw [e]
    cases applyFilter x n data (.dict (intEntry ps b!"Predictor") (intEntry ps b!"Columns")) <;> rfl
  · unfold streamData
    rw [h1, h2]
    show applyFilterMulti x (if n = [] then .falsy else .name n) data _ = _
    rw [if_neg hn]
    exact applyFilters_plain x [n] data
  · unfold streamData
    rw [h1, h2]
    show applyFilterMulti x (match namesOf (ns.map Obj.name) with | some [] => .falsy | some ns => .array ns | none => .other) data _ = _
    rw [namesOf_names]
    cases ns with
    | nil => rfl
    | cons n ns => exact applyFilters_plain x (n :: ns) data

/-- A stream with two filters, without parameters. -/
example (x : Ext) : streamData x [(b!"Filter", .arr [.name b!"AHx", .name b!"RL"])] b!"0041 80>" = .ok [65] := by
  rw [(C79_direct_partial x _ _).2.2.2 [b!"AHx", b!"RL"] rfl rfl]
  rfl

/-- C79 is false when the Filter is given by a reference: TypeError, whatever the reference refers to. -/
theorem C79_indirect_filter_counterexample (x : Ext) (d : List (Bytes × Obj)) (data : Bytes) (n g : Nat) (h : dictGet d b!"Filter" = some (.ref n g)) :
    streamData x d data = .error .typeError := by
  unfold streamData
  rw [h]
  rfl

/-- C79 is false when the parameters of a FlateDecode or LZWDecode stream are given by a reference, or as an array of one dictionary for
each filter: AttributeError for every stream which can be decompressed. -/
theorem C79_parms_counterexample (x : Ext) (d : List (Bytes × Obj)) (data raw : Bytes) (o : Obj) (hf : dictGet d b!"Filter" = some (.name b!"FlateDecode"))
    (hp : dictGet d b!"DecodeParms" = some o) (ho : (∃ n g, o = .ref n g) ∨ ∃ p ps, o = .arr (p :: ps)) (hi : x.inflate data = some raw) :
    streamData x d data = .error .attributeError := by
  have e : paramsEntry (some o) = .list := by
    rcases ho with ⟨n, g, rfl⟩ | ⟨p, ps, rfl⟩ <;> rfl
  unfold streamData
  rw [hf, hp, e]
  show (match applyFilter x b!"FlateDecode" data .list with | .error e => (.error e : Res Bytes) | .ok d => .ok d) = _
  have e2 : applyFilter x b!"FlateDecode" data .list = flateDecode x.inflate data .list := rfl
  rw [e2]
  unfold flateDecode
  rw [hi]
  rfl

/-- Streams whose filters are known, for which the counterexamples apply. -/
example : FiltersAre (fun _ _ => some (.name b!"FlateDecode")) (some (.ref 5 0)) none [(b!"FlateDecode", [])] :=
  .indirectFilter 5 0 _ _ _ rfl (.plain _ (by decide))

example : FiltersAre (fun _ _ => none) (some (.arr [.name b!"FlateDecode"])) (some (.arr [.dict [(b!"Predictor", .int 1)]]))
    [(b!"FlateDecode", [(b!"Predictor", .int 1)])] := .arrays [(b!"FlateDecode", [(b!"Predictor", .int 1)])]

end PdfReader
