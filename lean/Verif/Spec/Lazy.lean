/-
  What a dictionary is to a user: a finite map from keys to values.
-/
import Verif.Model.Lazy

namespace PdfReader.Spec

/-- Reading a key: the value of the entry. -/
def readKey (build : Obj → Res Val) (raw : List (Bytes × Obj)) (k : Bytes) : Res Val :=
  match dictGet raw k with
  | none => .error .keyError
  | some o => build o

/-- All entries. -/
def readAll (build : Obj → Res Val) (raw : List (Bytes × Obj)) : List Bytes → Res (List (Bytes × Val))
  | [] => .ok []
  | k :: ks =>
    match readKey build raw k with
    | .error e => .error e
    | .ok v =>
      match readAll build raw ks with
      | .error e => .error e
      | .ok vs => .ok ((k, v) :: vs)

/-- A missing key reads as None. -/
def orNull (r : Res Val) : Res Val :=
  match r with
  | .error .keyError => .ok (.atom .null)
  | r => r

/-- The entry of a key is taken out. -/
def takeOut (build : Obj → Res Val) (raw : List (Bytes × Obj)) (k : Bytes) : Res Val × List (Bytes × Obj) :=
  match readKey build raw k with
  | .error e => (.error e, raw)
  | .ok v => (.ok v, raw.filter fun e => e.1 != k)

/-- A dictionary without a cache. `pop` with a default returns it (here: None) for a missing key. -/
def plainStep (build : Obj → Res Val) (raw : List (Bytes × Obj)) : DictOp → DictOut × List (Bytes × Obj)
  | .item k => (.value (readKey build raw k), raw)
  | .get k => (.value (orNull (readKey build raw k)), raw)
  | .keys => (.keys (raw.map (·.1)), raw)
  | .values => (.values ((readAll build raw (raw.map (·.1))).map fun vs => vs.map (·.2)), raw)
  | .items => (.items (readAll build raw (raw.map (·.1))), raw)
  | .contains k => (.bool (dictGet raw k).isSome, raw)
  | .set k o => (.done (.ok ()), dictSet raw k o)
  | .del k =>
    match dictGet raw k with
    | none => (.done (.error .keyError), raw)
    | some _ => (.done (.ok ()), raw.filter fun e => e.1 != k)
  | .pop k => (.value (takeOut build raw k).1, (takeOut build raw k).2)
  | .popDefault k =>
    match dictGet raw k with
    | some _ => (.value (takeOut build raw k).1, (takeOut build raw k).2)
    | none => (.value (.ok (.atom .null)), raw)
  | .popitem =>
    match raw with
    | [] => (.entry (.error .keyError), raw)
    | (k, _) :: _ => (.entry ((takeOut build raw k).1.map fun v => (k, v)), (takeOut build raw k).2)

/-- A history. -/
def plainRun (build : Obj → Res Val) (raw : List (Bytes × Obj)) : List DictOp → List DictOut × List (Bytes × Obj)
  | [] => ([], raw)
  | op :: ops => ((plainStep build raw op).1 :: (plainRun build (plainStep build raw op).2 ops).1, (plainRun build (plainStep build raw op).2 ops).2)

/-- Operations which only read. -/
def Reading : DictOp → Prop
  | .item _ | .get _ | .keys | .values | .items | .contains _ => True
  | _ => False

/-- Does the operation read the key? -/
def ReadsKey (op : DictOp) (k : Bytes) : Prop :=
  match op with
  | .item j | .get j => j = k
  | .values | .items => True
  | _ => False

/-- Histories of reading and writing, in which no key is written after it was read. -/
def NoLateWrite : List DictOp → List DictOp → Prop
  | _, [] => True
  | before, op :: ops => (Reading op ∨ ∃ k o, op = .set k o ∧ ∀ p ∈ before, ¬ ReadsKey p k) ∧ NoLateWrite (op :: before) ops

end PdfReader.Spec
