/-
  What a stream is to a user: entries and data. Nothing is remembered.
-/
import Verif.Model.StreamObject

namespace PdfReader.Spec

/-- Entries and data. -/
structure Pair where
  dict : List (Bytes × Obj)
  data : Bytes

/-- The value of an entry, None if it is missing. -/
def Pair.value (build : Obj → Res Val) (p : Pair) (k : Bytes) : Res Val :=
  match dictGet p.dict k with
  | some o => build o
  | none => build .null

/-- The entry as it is written. -/
def Pair.raw (p : Pair) (k : Bytes) : Res Obj :=
  match dictGet p.dict k with
  | some o => .ok o
  | none => .error .keyError

/-- One operation. -/
def Pair.step (x : Ext) (build : Obj → Res Val) (p : Pair) : StreamOp → StreamOut × Pair
  | .attr k => (.value (p.value build k), p)
  | .item k => (.object (p.raw k), p)
  | .get k => (.object (.ok (match p.raw k with | .ok o => o | .error _ => .null)), p)
  | .filtered => (.bytes (streamData x p.dict p.data), p)
  | .data => (.bytes (.ok p.data), p)
  | .length => (.num p.data.length, p)
  | .set k o => (.done (.ok ()), { p with dict := dictSet p.dict k o })
  | .del k => (.done ((p.raw k).map fun _ => ()), { p with dict := p.dict.filter fun e => e.1 != k })
  | .setData b => (.done (.ok ()), { p with data := b })

/-- A history. -/
def Pair.run (x : Ext) (build : Obj → Res Val) (p : Pair) : List StreamOp → List StreamOut × Pair
  | [] => ([], p)
  | op :: ops => ((p.step x build op).1 :: (Pair.run x build (p.step x build op).2 ops).1, (Pair.run x build (p.step x build op).2 ops).2)

/-- What was read: an entry, or the decoded data. -/
inductive Learnt where
  | entry (k : Bytes)
  | decoded
  deriving DecidableEq

/-- What an operation reads. Failures are not readings. -/
def Pair.learns (x : Ext) (build : Obj → Res Val) (p : Pair) : StreamOp → List Learnt
  | .attr k => match p.value build k with | .ok _ => [.entry k] | .error _ => []
  | .filtered => match streamData x p.dict p.data with | .ok _ => [.decoded] | .error _ => []
  | _ => []

/-- Does the operation change what this was read from? -/
def Spoils : StreamOp → Learnt → Prop
  | .set k _, .entry j => k = j
  | .del k, .entry j => k = j
  | .set k _, .decoded => k = b!"Filter" ∨ k = b!"DecodeParms"
  | .del k, .decoded => k = b!"Filter" ∨ k = b!"DecodeParms"
  | .setData _, .decoded => True
  | _, _ => False

/-- Nothing is changed after it was read. -/
def Timely (x : Ext) (build : Obj → Res Val) : Pair → List Learnt → List StreamOp → Prop
  | _, _, [] => True
  | p, seen, op :: ops => (∀ l ∈ seen, ¬ Spoils op l) ∧ Timely x build (p.step x build op).2 (p.learns x build op ++ seen) ops

end PdfReader.Spec
