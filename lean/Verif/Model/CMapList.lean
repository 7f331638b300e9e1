/-
  Listing the codes of a CMap, pdfreader/types/cmap.py: `as_list`, `as_dict`, `len`, `max`, `in`, and the iteration of ranges.
-/
import Verif.Model.CMap

namespace PdfReader

/-- `Range.__iter__`, types/cmap.py:56-62, and the codes which `as_list` takes from a range, types/cmap.py:282-284. -/
def rangeCodes (r : CodeRange) : List Bytes := (List.range' r.lo (r.hi + 1 - r.lo)).map (zfillHex r.size)

/-- `Range.__len__`, types/cmap.py:47-54. -/
def rangeLen (r : CodeRange) : Nat := r.hi - r.lo + 1

/-- Adds a code to a sorted set. -/
def insertCode (x : Bytes) : List Bytes → List Bytes
  | [] => [x]
  | y :: ys => if x < y then x :: y :: ys else if x = y then y :: ys else y :: insertCode x ys

/-- `sorted(set(codes))`, types/cmap.py:281-285. -/
def sortCodes (xs : List Bytes) : List Bytes := xs.foldr insertCode []

/-- `CodespaceRanges.as_list` for plain ranges, types/cmap.py:272-285. -/
def codesList (rs : List CodeRange) : List Bytes := sortCodes (rs.flatMap rangeCodes)

/-- `item in codespace_ranges`, types/cmap.py:232-256. -/
def codesContain : List CodeRange → Bytes → Res Bool
  | [], _ => .ok false
  | r :: rs, x =>
    match r.contains x with
    | .error e => .error e
    | .ok true => .ok true
    | .ok false => codesContain rs x

/-- `CodespaceRanges.max`, types/cmap.py:261-270: `max` of an empty sequence is a ValueError. -/
def codesMax : List CodeRange → Res Nat
  | [] => .error .valueError
  | r :: rs => .ok (rs.foldl (fun m r => max m r.hi) r.hi)

/-- The bounds which `as_list` and `max` ask of the mappings: a `BFChar` has none. -/
def entryRanges : List MapEntry → Res (List CodeRange)
  | [] => .ok []
  | .range r _ :: ms => match entryRanges ms with | .error e => .error e | .ok rs => .ok (r :: rs)
  | .char _ _ :: _ => .error .attributeError

/-- `as_list` of mappings, types/cmap.py:272-285. -/
def mapList (ms : List MapEntry) : Res (List Bytes) := (entryRanges ms).map codesList

/-- `{item: self[item] for item in codes}` -/
def mapPairs (ms : List MapEntry) : List Bytes → Res (List (Bytes × Text))
  | [] => .ok []
  | x :: xs =>
    match mapGet ms x with
    | .error e => .error e
    | .ok t => (mapPairs ms xs).map fun ps => (x, t) :: ps

/-- `as_dict`, types/cmap.py:357-366. -/
def mapDict (ms : List MapEntry) : Res (List (Bytes × Text)) :=
  match mapList ms with
  | .error e => .error e
  | .ok xs => mapPairs ms xs

/-- `cmap.bf_ranges`, `cmap.cid_ranges` and `cmap.notdef_ranges`, types/cmap.py:378-384. -/
def CMap.mapping (c : CMap) (kind : Bytes) : List MapEntry := if kind = b!"bf" then c.bf else if kind = b!"cid" then c.cid else c.notdef

end PdfReader
