/-
  The decoded data of a stream: `Stream.filtered`, pdfreader/types/native.py:109-114, on the entries as they are parsed.
-/
import Verif.Model.Filters
import Verif.Model.Locate

namespace PdfReader

/-- An integer entry of a parameter dictionary: `params.get(k)`. Simplification: values which are not integers count as missing. -/
def intParam (es : List (Bytes × Obj)) (k : Bytes) : Option Int :=
  match dictGet es k with
  | some (.int n) => some n
  | _ => none

/-- `params or {}`, filters/__init__.py:14. What has no `.get` (lists, references, names …) fails in the filters which use parameters. -/
def paramsEntry (o : Option Obj) : Params :=
  match o with
  | some (.dict es) => .dict (intParam es b!"Predictor") (intParam es b!"Columns")
  | some o => if truthy o then .list else .dict none none
  | none => .dict none none

/-- The names of an array, if it consists of names. -/
def namesOf : List Obj → Option (List Bytes)
  | [] => some []
  | .name n :: os => (namesOf os).map (n :: ·)
  | _ :: _ => none

/-- The Filter entry for `apply_filter_multi`, native.py:41-51. Simplification: an array with something else than names fails at once (the
code fails when it comes to that element, with TypeError for references and arrays). -/
def filterEntry (o : Option Obj) : FilterEntry :=
  match o with
  | some (.name n) => if n = [] then .falsy else .name n
  | some (.arr os) =>
    match namesOf os with
    | some [] => .falsy
    | some ns => .array ns
    | none => .other
  | some o => if truthy o then .other else .falsy
  | none => .falsy

/-- `Stream.filtered`: the entries are used as they are written in the file, without resolving references. -/
def streamData (x : Ext) (d : List (Bytes × Obj)) (data : Bytes) : Res Bytes :=
  applyFilterMulti x (filterEntry (dictGet d b!"Filter")) data (paramsEntry (dictGet d b!"DecodeParms"))

end PdfReader
