/-
  Access to dictionary objects of a document: DictBasedObject, pdfreader/types/objects.py:72-128. Building values (document.py:64-107, see
  Model/Objects.lean) is a parameter here.
-/
import Verif.Model.Objects

namespace PdfReader

/-- A DictBasedObject: the dictionary itself, its `_cache`, and, to count, the keys for which a value was built. -/
structure LazyDict where
  raw : List (Bytes × Obj)
  cache : List (Bytes × Val) := []
  built : List Bytes := []

/-- `__getitem__`, objects.py:83-89 -/
def LazyDict.item (build : Obj → Res Val) (d : LazyDict) (k : Bytes) : Res Val × LazyDict :=
  match assoc k d.cache with
  | some v => (.ok v, d)
  | none =>
    match dictGet d.raw k with
    | none => (.error .keyError, d)
    | some o =>
      match build o with
      | .error e => (.error e, { d with built := k :: d.built })
      | .ok v => (.ok v, { d with cache := (k, v) :: d.cache, built := k :: d.built })

/-- `get` and attributes, objects.py:80-81, 95-100 -/
def LazyDict.get (build : Obj → Res Val) (d : LazyDict) (k : Bytes) : Res Val × LazyDict :=
  match d.item build k with
  | (.error .keyError, d1) => (.ok (.atom .null), d1)
  | r => r

/-- `[(k, self[k]) for k in …]` -/
def LazyDict.itemsFor (build : Obj → Res Val) : List Bytes → LazyDict → Res (List (Bytes × Val)) × LazyDict
  | [], d => (.ok [], d)
  | k :: ks, d =>
    match d.item build k with
    | (.error e, d1) => (.error e, d1)
    | (.ok v, d1) =>
      match LazyDict.itemsFor build ks d1 with
      | (.error e, d2) => (.error e, d2)
      | (.ok vs, d2) => (.ok ((k, v) :: vs), d2)

/-- What users do with a dictionary object. -/
inductive DictOp where
  | item (k : Bytes)
  | get (k : Bytes)
  | keys
  | values
  | items
  | contains (k : Bytes)
  | set (k : Bytes) (o : Obj)
  | del (k : Bytes)
  | pop (k : Bytes)
  | popDefault (k : Bytes)
  | popitem

/-- What they get. -/
inductive DictOut where
  | value (r : Res Val)
  | keys (ks : List Bytes)
  | values (r : Res (List Val))
  | items (r : Res (List (Bytes × Val)))
  | bool (b : Bool)
  | done (r : Res Unit)
  | entry (r : Res (Bytes × Val))

/-- `dict.pop(k)` on the dictionary itself. -/
def dictDel (es : List (Bytes × Obj)) (k : Bytes) : List (Bytes × Obj) := es.filter fun e => e.1 != k

/-- `del self._cache[k]` -/
def cacheDel (es : List (Bytes × Val)) (k : Bytes) : List (Bytes × Val) := es.filter fun e => e.1 != k

/-- `pop(k)`, objects.py:115-121: the cache keeps the value. -/
def LazyDict.popKey (build : Obj → Res Val) (d : LazyDict) (k : Bytes) : Res Val × LazyDict :=
  match dictGet d.raw k with
  | none => (.error .keyError, d)
  | some _ =>
    match d.item build k with
    | (.error e, d1) => (.error e, d1)
    | (.ok v, d1) => (.ok v, { d1 with raw := dictDel d1.raw k })

/-- One operation. `set` is the method of dict, which DictBasedObject does not override; `__delitem__` (objects.py:91-93) only removes the
cached value; `popDefault` is `pop(k, default=…)`: dict.pop accepts no keyword. -/
def LazyDict.step (build : Obj → Res Val) (d : LazyDict) : DictOp → DictOut × LazyDict
  | .item k => (.value (d.item build k).1, (d.item build k).2)
  | .get k => (.value (d.get build k).1, (d.get build k).2)
  | .keys => (.keys (d.raw.map (·.1)), d)
  | .values => (.values ((LazyDict.itemsFor build (d.raw.map (·.1)) d).1.map fun vs => vs.map (·.2)), (LazyDict.itemsFor build (d.raw.map (·.1)) d).2)
  | .items => (.items (LazyDict.itemsFor build (d.raw.map (·.1)) d).1, (LazyDict.itemsFor build (d.raw.map (·.1)) d).2)
  | .contains k => (.bool (dictGet d.raw k).isSome, d)
  | .set k o => (.done (.ok ()), { d with raw := dictSet d.raw k o })
  | .del k =>
    match assoc k d.cache with
    | none => (.done (.error .keyError), d)
    | some _ => (.done (.ok ()), { d with cache := cacheDel d.cache k })
  | .pop k => (.value (d.popKey build k).1, (d.popKey build k).2)
  | .popDefault k =>
    match dictGet d.raw k with
    | some _ => (.value (d.popKey build k).1, (d.popKey build k).2)
    | none => (.value (.error .typeError), d)
  | .popitem =>
    match d.raw with
    | [] => (.entry (.error .keyError), d)
    | (k, _) :: _ => (.entry ((d.popKey build k).1.map fun v => (k, v)), (d.popKey build k).2)

/-- A history. -/
def LazyDict.run (build : Obj → Res Val) (d : LazyDict) : List DictOp → List DictOut × LazyDict
  | [] => ([], d)
  | op :: ops => ((d.step build op).1 :: (LazyDict.run build (d.step build op).2 ops).1, (LazyDict.run build (d.step build op).2 ops).2)

end PdfReader
