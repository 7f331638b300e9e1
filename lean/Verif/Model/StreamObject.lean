/-
  Access to stream objects of a document: Stream and StreamBasedObject, pdfreader/types/native.py:66-125, pdfreader/types/objects.py:36-56.
  Building values (document.py:64-107, see Model/Objects.lean) is a parameter here.
-/
import Verif.Model.Lazy
import Verif.Model.StreamData

namespace PdfReader

/-- A StreamBasedObject: `dictionary`, `stream`, `_cache`, and the attribute `filtered` once the cached property has put it there. -/
structure StreamObject where
  dict : List (Bytes × Obj)
  data : Bytes
  cache : List (Bytes × Val) := []
  decoded : Option Bytes := none

/-- What users do with a stream object: attributes, `s[k]`, `s.get(k)`, `s.filtered`, `s.stream`, `len(s)`, `s.dictionary[k] = o`,
`del s.dictionary[k]`, `s.stream = data`. Attributes are those which Python does not find on the object itself or on its class. -/
inductive StreamOp where
  | attr (k : Bytes)
  | item (k : Bytes)
  | get (k : Bytes)
  | filtered
  | data
  | length
  | set (k : Bytes) (o : Obj)
  | del (k : Bytes)
  | setData (data : Bytes)

/-- What they get. -/
inductive StreamOut where
  | value (r : Res Val)
  | object (r : Res Obj)
  | bytes (r : Res Bytes)
  | num (n : Nat)
  | done (r : Res Unit)

/-- `StreamBasedObject.__getattr__`, objects.py:51-57, over `Stream.__getattr__`, native.py:124-125: a missing entry is built, and cached,
as None. -/
def StreamObject.attribute (build : Obj → Res Val) (s : StreamObject) (k : Bytes) : Res Val × StreamObject :=
  match assoc k s.cache with
  | some v => (.ok v, s)
  | none =>
    match build ((dictGet s.dict k).getD .null) with
    | .error e => (.error e, s)
    | .ok v => (.ok v, { s with cache := (k, v) :: s.cache })

/-- `Stream.filtered`, native.py:109-114, as a `cached_property`, utils.py:12-24: an exception leaves nothing behind. -/
def StreamObject.filteredData (x : Ext) (s : StreamObject) : Res Bytes × StreamObject :=
  match s.decoded with
  | some b => (.ok b, s)
  | none =>
    match streamData x s.dict s.data with
    | .error e => (.error e, s)
    | .ok b => (.ok b, { s with decoded := some b })

/-- One operation. `__getitem__`, `get` and `__len__` are those of Stream, native.py:89-96, which do not build. -/
def StreamObject.step (x : Ext) (build : Obj → Res Val) (s : StreamObject) : StreamOp → StreamOut × StreamObject
  | .attr k => (.value (s.attribute build k).1, (s.attribute build k).2)
  | .item k =>
    match dictGet s.dict k with
    | none => (.object (.error .keyError), s)
    | some o => (.object (.ok o), s)
  | .get k => (.object (.ok ((dictGet s.dict k).getD .null)), s)
  | .filtered => (.bytes (s.filteredData x).1, (s.filteredData x).2)
  | .data => (.bytes (.ok s.data), s)
  | .length => (.num s.data.length, s)
  | .set k o => (.done (.ok ()), { s with dict := dictSet s.dict k o })
  | .del k =>
    match dictGet s.dict k with
    | none => (.done (.error .keyError), s)
    | some _ => (.done (.ok ()), { s with dict := dictDel s.dict k })
  | .setData b => (.done (.ok ()), { s with data := b })

/-- A history. -/
def StreamObject.run (x : Ext) (build : Obj → Res Val) (s : StreamObject) : List StreamOp → List StreamOut × StreamObject
  | [] => ([], s)
  | op :: ops =>
    ((s.step x build op).1 :: (StreamObject.run x build (s.step x build op).2 ops).1, (StreamObject.run x build (s.step x build op).2 ops).2)

end PdfReader
