/-
  Comparison of parsed objects with `==`: types/native.py `Stream.__eq__`, `IndirectReference.__eq__`, and Python's own for the other types.
-/
import Verif.Model.Object

namespace PdfReader

/-- Numbers as coefficient and exponent: `Boolean = bool` is a subclass of `int`, `Real = Decimal` (native.py:12-14). -/
def numOf : Obj → Option (Int × Int)
  | .bool b => some (if b then 1 else 0, 0)
  | .int n => some (n, 0)
  | .real c e => some (c, e)
  | _ => none

/-- `Name(str)`, `HexString(str)` (native.py:23-36) and `Token(str)` (native.py:188-193) compare as `str`. -/
def charsOf : Obj → Option Bytes
  | .name t => some t
  | .hex t => some t
  | .token t => some t
  | _ => none

/-- Comparison of numbers: `Decimal._cmp` pads the coefficient with the larger exponent with zeros; integers have exponent 0. -/
def eqNum (a b : Int × Int) : Bool :=
  if b.2 ≤ a.2 then a.1 * 10 ^ (a.2 - b.2).toNat == b.1 else a.1 == b.1 * 10 ^ (b.2 - a.2).toNat

/-- `a == b` where `a` is no array, dictionary, stream or reference. Python's types give NotImplemented for other types, and the reflected
method of `b` is asked: `Stream.__eq__` and `IndirectReference.__eq__` (native.py:117-118, 146-147) read attributes which `a` has not. Simplified: inline
images, which no document contains as objects, are not compared by their attributes. -/
def eqSimple (a b : Obj) : Res Bool :=
  match b with
  | .stream _ _ => .error .attributeError
  | .ref _ _ => .error .attributeError
  | _ =>
    match numOf a, numOf b with
    | some x, some y => .ok (eqNum x y)
    | _, _ =>
      match charsOf a, charsOf b with
      | some s, some t => .ok (s == t)
      | _, _ =>
        match a, b with
        | .null, .null => .ok true
        | .str s, .str t => .ok (s == t)
        | _, _ => .ok false

mutual
/-- `a == b`. A stream or reference on the left: native.py:117-118, 146-147; attributes of a stream which it has not are entries of its
dictionary (native.py:124-125). -/
def eqObj : Obj → Obj → Res Bool
  | .arr xs, b =>
    match b with
    | .arr ys => if xs.length = ys.length then eqItems xs ys else .ok false
    | .stream _ _ => .error .attributeError
    | .ref _ _ => .error .attributeError
    | _ => .ok false
  | .dict es, b =>
    match b with
    | .dict fs => if es.length = fs.length then eqEnts es fs else .ok false
    | .stream _ _ => .error .attributeError
    | .ref _ _ => .error .attributeError
    | _ => .ok false
  | .stream d x, b =>
    match b with
    | .stream d' y =>
      if d.length = d'.length then
        match eqEnts d d' with
        | .ok true => .ok (x == y)
        | r => r
      else .ok false
    | _ => .error .attributeError
  | .ref n g, b =>
    match b with
    | .ref n' g' => .ok (n == n' && g == g')
    | .stream d _ =>
      match eqSimple (.int n) ((dictGet d b!"num").getD .null) with
      | .ok true => eqSimple (.int g) ((dictGet d b!"gen").getD .null)
      | r => r
    | _ => .error .attributeError
  | .null, b => eqSimple .null b
  | .bool x, b => eqSimple (.bool x) b
  | .int x, b => eqSimple (.int x) b
  | .real c e, b => eqSimple (.real c e) b
  | .name x, b => eqSimple (.name x) b
  | .str x, b => eqSimple (.str x) b
  | .hex x, b => eqSimple (.hex x) b
  | .token x, b => eqSimple (.token x) b
  | .image d x, b => eqSimple (.image d x) b

/-- Lists of the same length: the elements in turn, until two differ. -/
def eqItems : List Obj → List Obj → Res Bool
  | x :: xs, y :: ys =>
    match eqObj x y with
    | .ok true => eqItems xs ys
    | r => r
  | _, _ => .ok true

/-- Dictionaries of the same size: the entries of the left one in turn, until one is missing on the right or differs. -/
def eqEnts : List (Bytes × Obj) → List (Bytes × Obj) → Res Bool
  | [], _ => .ok true
  | (k, v) :: es, fs =>
    match dictGet fs k with
    | none => .ok false
    | some w =>
      match eqObj v w with
      | .ok true => eqEnts es fs
      | r => r
end

end PdfReader
