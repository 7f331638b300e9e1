/-
  Building objects with `lazy=False`: pdfreader/document.py (build).
-/
import Verif.Model.Objects

namespace PdfReader

/-- What `build(obj, lazy=False)` returns: the entries of dictionaries and streams are built, too. -/
inductive Deep where
  | atom (o : Obj)
  | arr (xs : List Deep)
  | dict (cls : Option Bytes) (es : List (Bytes × Deep))
  | stream (cls : Bytes) (d : List (Bytes × Deep)) (data : Bytes)

/-- `hash(obj)`, as `hashable` of `Model/Objects.lean`, of a value which is built. -/
def deepHashable : Deep → Bool
  | .atom o => hashable o
  | _ => false

/-- `DICT_OBJECTS.get(obj.get('Type'), DictBasedObject)`, types/objects.py:134, on the dictionary with the values which are built
(document.py:96-97). -/
def deepDictClass (es : List (Bytes × Deep)) : Res (Option Bytes) :=
  match assoc b!"Type" es with
  | some (.atom (.name t)) => .ok (if t ∈ dictTypes then some t else none)
  | some d => if deepHashable d then .ok none else .error .typeError
  | none => .ok none

/-- The class of a stream, types/objects.py:129-133, with the dictionary which is built (document.py:100-101). A reference as Type is compared
with a string, by an `__eq__` which fails with AttributeError. -/
def deepStreamClass (d : List (Bytes × Deep)) : Res Bytes :=
  match (assoc b!"Type" d).getD (.atom .null) with
  | .atom (.ref _ _) => .error .attributeError
  | .atom (.name t) =>
    if t = b!"XObject" then
      match (assoc b!"Subtype" d).getD (.atom .null) with
      | .atom (.name u) =>
        .ok (if u = b!"Image" then b!"Image" else if u = b!"Form" then b!"Form" else if u = b!"Group" then b!"Group" else b!"XObject")
      | o => if deepHashable o then .ok b!"XObject" else .error .typeError
    else .ok (if t = b!"ObjectStream" then b!"ObjectStream" else if t = b!"CMap" then b!"CMap" else if t = b!"Metadata" then b!"Metadata" else b!"StreamBasedObject")
  | o => if deepHashable o then .ok b!"StreamBasedObject" else .error .typeError

/-- `obj_factory` on a dictionary which is built, document.py:97 -/
def deepDict {σ : Type} (es : List (Bytes × Deep)) : DM σ Deep := DM.pure ((deepDictClass es).map fun c => .dict c es)

/-- `obj_factory` on a stream whose dictionary is built, document.py:101 -/
def deepStream {σ : Type} (data : Bytes) (d : List (Bytes × Deep)) : DM σ Deep := DM.pure ((deepStreamClass d).map fun c => .stream c d data)

/-- `{k: f(o) for k, o in items}` -/
def deepEntries {σ α : Type} (f : α → DM σ Deep) (es : List (Bytes × α)) : DM σ (List (Bytes × Deep)) :=
  DM.mapM (fun e => (f e.2).bind fun v => DM.pure (.ok (e.1, v))) es

mutual
/-- `build(obj, visited, lazy=False)`, document.py:64-107, on a parsed object. The entries of parsed dictionaries and streams are parsed
objects. Simplification: the dictionary of a stream which was parsed is replaced in place (document.py:100); the model returns the new one and
leaves what the parser holds as it is. -/
def deepObj {σ : Type} (loc : Locator σ) : Nat → List Key → Obj → DM σ Deep
  | 0, _, _ => DM.pure (.error .diverges)
  | fuel + 1, visited, o =>
    match o with
    | .ref n g =>
      if (n, g) ∈ visited then DM.pure (.ok (.atom o))
      else (loc n g).bind fun x => (factory loc fuel x).bind fun v =>
        match v with
        | .atom o => DM.pure (.ok (.atom o))
        | v => deepVal loc fuel ((n, g) :: visited) v
    | .arr xs => (DM.mapM (deepObj loc fuel visited) xs).bind fun vs => DM.pure (.ok (.arr vs))
    | .dict es => (deepEntries (deepObj loc fuel visited) es).bind deepDict
    | .stream d data => (deepEntries (deepObj loc fuel visited) d).bind (deepStream data)
    | o => DM.pure (.ok (.atom o))

/-- The same on an object of the document. `items()` of a DictBasedObject builds the values lazily, without the references which were visited
(types/objects.py:85-91, 108-109), before they are built once more (document.py:95-96); the dictionary of a stream is the parsed one. -/
def deepVal {σ : Type} (loc : Locator σ) : Nat → List Key → Val → DM σ Deep
  | 0, _, _ => DM.pure (.error .diverges)
  | fuel + 1, visited, v =>
    match v with
    | .atom o => deepObj loc fuel visited o
    | .arr vs => (DM.mapM (deepVal loc fuel visited) vs).bind fun vs => DM.pure (.ok (.arr vs))
    | .dict _ es => (itemsOf loc fuel es).bind fun items => (deepEntries (deepVal loc fuel visited) items).bind deepDict
    | .stream _ d data => (deepEntries (deepObj loc fuel visited) d).bind (deepStream data)
end

end PdfReader
