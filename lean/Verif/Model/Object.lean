/-
  PDF objects as the parsers produce them: pdfreader/types/native.py, types/content.py.
-/
import Verif.Model.Basic

namespace PdfReader

/-- Python values produced by the parsers. Names and tokens are `str` decoded as latin-1, i.e. byte
strings. A `Decimal` is `coeff * 10 ^ exp` (native.py:15 `Real = Decimal`). A `dict` is its
insertion-ordered list of entries with distinct keys. -/
inductive Obj where
  | null
  | bool (b : Bool)
  | int (n : Int)
  | real (coeff : Int) (exp : Int)
  | name (n : Bytes)
  | str (s : Bytes)
  | hex (digits : Bytes)
  | arr (xs : List Obj)
  | dict (es : List (Bytes × Obj))
  | stream (d : List (Bytes × Obj)) (data : Bytes)
  | ref (num gen : Nat)
  | token (t : Bytes)
  /-- types/content.py `InlineImage` -/
  | image (d : List (Bytes × Obj)) (data : Bytes)
  deriving Repr

mutual
/-- Decidable equality of objects (used to evaluate examples only). -/
def decObj : (a b : Obj) → Decidable (a = b)
  | .null, .null => isTrue rfl
  | .bool a, .bool b => if h : a = b then isTrue (by rw [h]) else isFalse (by intro e; cases e; exact h rfl)
  | .int a, .int b => if h : a = b then isTrue (by rw [h]) else isFalse (by intro e; cases e; exact h rfl)
  | .real a e, .real b f =>
    if h : a = b ∧ e = f then isTrue (by rw [h.1, h.2]) else isFalse (by intro e; cases e; exact h ⟨rfl, rfl⟩)
  | .name a, .name b => if h : a = b then isTrue (by rw [h]) else isFalse (by intro e; cases e; exact h rfl)
  | .str a, .str b => if h : a = b then isTrue (by rw [h]) else isFalse (by intro e; cases e; exact h rfl)
  | .hex a, .hex b => if h : a = b then isTrue (by rw [h]) else isFalse (by intro e; cases e; exact h rfl)
  | .arr a, .arr b =>
    match decObjs a b with
    | isTrue h => isTrue (by rw [h])
    | isFalse h => isFalse (by intro e; cases e; exact h rfl)
  | .dict a, .dict b =>
    match decEnts a b with
    | isTrue h => isTrue (by rw [h])
    | isFalse h => isFalse (by intro e; cases e; exact h rfl)
  | .stream a x, .stream b y =>
    match decEnts a b, decEq x y with
    | isTrue h, isTrue h' => isTrue (by rw [h, h'])
    | isFalse h, _ => isFalse (by intro e; cases e; exact h rfl)
    | _, isFalse h => isFalse (by intro e; cases e; exact h rfl)
  | .ref a e, .ref b f =>
    if h : a = b ∧ e = f then isTrue (by rw [h.1, h.2]) else isFalse (by intro e; cases e; exact h ⟨rfl, rfl⟩)
  | .token a, .token b => if h : a = b then isTrue (by rw [h]) else isFalse (by intro e; cases e; exact h rfl)
  | .image a x, .image b y =>
    match decEnts a b, decEq x y with
    | isTrue h, isTrue h' => isTrue (by rw [h, h'])
    | isFalse h, _ => isFalse (by intro e; cases e; exact h rfl)
    | _, isFalse h => isFalse (by intro e; cases e; exact h rfl)
  | .null, .bool _ | .null, .int _ | .null, .real _ _ | .null, .name _ | .null, .str _ | .null, .hex _ | .null, .arr _ | .null, .dict _ | .null, .stream _ _ | .null, .ref _ _ | .null, .token _ | .null, .image _ _
  | .bool _, .null | .bool _, .int _ | .bool _, .real _ _ | .bool _, .name _ | .bool _, .str _ | .bool _, .hex _ | .bool _, .arr _ | .bool _, .dict _ | .bool _, .stream _ _ | .bool _, .ref _ _ | .bool _, .token _ | .bool _, .image _ _
  | .int _, .null | .int _, .bool _ | .int _, .real _ _ | .int _, .name _ | .int _, .str _ | .int _, .hex _ | .int _, .arr _ | .int _, .dict _ | .int _, .stream _ _ | .int _, .ref _ _ | .int _, .token _ | .int _, .image _ _
  | .real _ _, .null | .real _ _, .bool _ | .real _ _, .int _ | .real _ _, .name _ | .real _ _, .str _ | .real _ _, .hex _ | .real _ _, .arr _ | .real _ _, .dict _ | .real _ _, .stream _ _ | .real _ _, .ref _ _ | .real _ _, .token _ | .real _ _, .image _ _
  | .name _, .null | .name _, .bool _ | .name _, .int _ | .name _, .real _ _ | .name _, .str _ | .name _, .hex _ | .name _, .arr _ | .name _, .dict _ | .name _, .stream _ _ | .name _, .ref _ _ | .name _, .token _ | .name _, .image _ _
  | .str _, .null | .str _, .bool _ | .str _, .int _ | .str _, .real _ _ | .str _, .name _ | .str _, .hex _ | .str _, .arr _ | .str _, .dict _ | .str _, .stream _ _ | .str _, .ref _ _ | .str _, .token _ | .str _, .image _ _
  | .hex _, .null | .hex _, .bool _ | .hex _, .int _ | .hex _, .real _ _ | .hex _, .name _ | .hex _, .str _ | .hex _, .arr _ | .hex _, .dict _ | .hex _, .stream _ _ | .hex _, .ref _ _ | .hex _, .token _ | .hex _, .image _ _
  | .arr _, .null | .arr _, .bool _ | .arr _, .int _ | .arr _, .real _ _ | .arr _, .name _ | .arr _, .str _ | .arr _, .hex _ | .arr _, .dict _ | .arr _, .stream _ _ | .arr _, .ref _ _ | .arr _, .token _ | .arr _, .image _ _
  | .dict _, .null | .dict _, .bool _ | .dict _, .int _ | .dict _, .real _ _ | .dict _, .name _ | .dict _, .str _ | .dict _, .hex _ | .dict _, .arr _ | .dict _, .stream _ _ | .dict _, .ref _ _ | .dict _, .token _ | .dict _, .image _ _
  | .stream _ _, .null | .stream _ _, .bool _ | .stream _ _, .int _ | .stream _ _, .real _ _ | .stream _ _, .name _ | .stream _ _, .str _ | .stream _ _, .hex _ | .stream _ _, .arr _ | .stream _ _, .dict _ | .stream _ _, .ref _ _ | .stream _ _, .token _ | .stream _ _, .image _ _
  | .ref _ _, .null | .ref _ _, .bool _ | .ref _ _, .int _ | .ref _ _, .real _ _ | .ref _ _, .name _ | .ref _ _, .str _ | .ref _ _, .hex _ | .ref _ _, .arr _ | .ref _ _, .dict _ | .ref _ _, .stream _ _ | .ref _ _, .token _ | .ref _ _, .image _ _
  | .token _, .null | .token _, .bool _ | .token _, .int _ | .token _, .real _ _ | .token _, .name _ | .token _, .str _ | .token _, .hex _ | .token _, .arr _ | .token _, .dict _ | .token _, .stream _ _ | .token _, .ref _ _ | .token _, .image _ _
  | .image _ _, .null | .image _ _, .bool _ | .image _ _, .int _ | .image _ _, .real _ _ | .image _ _, .name _ | .image _ _, .str _ | .image _ _, .hex _ | .image _ _, .arr _ | .image _ _, .dict _ | .image _ _, .stream _ _ | .image _ _, .ref _ _ | .image _ _, .token _ => isFalse (by intro e; cases e)
def decObjs : (a b : List Obj) → Decidable (a = b)
  | [], [] => isTrue rfl
  | [], _ :: _ => isFalse (by intro e; cases e)
  | _ :: _, [] => isFalse (by intro e; cases e)
  | x :: xs, y :: ys =>
    match decObj x y, decObjs xs ys with
    | isTrue h, isTrue h' => isTrue (by rw [h, h'])
    | isFalse h, _ => isFalse (by intro e; cases e; exact h rfl)
    | _, isFalse h => isFalse (by intro e; cases e; exact h rfl)
def decEnts : (a b : List (Bytes × Obj)) → Decidable (a = b)
  | [], [] => isTrue rfl
  | [], _ :: _ => isFalse (by intro e; cases e)
  | _ :: _, [] => isFalse (by intro e; cases e)
  | (k, x) :: xs, (l, y) :: ys =>
    match decEq k l, decObj x y, decEnts xs ys with
    | isTrue h, isTrue h', isTrue h'' => isTrue (by rw [h, h', h''])
    | isFalse h, _, _ => isFalse (by intro e; cases e; exact h rfl)
    | _, isFalse h, _ => isFalse (by intro e; cases e; exact h rfl)
    | _, _, isFalse h => isFalse (by intro e; cases e; exact h rfl)
end

instance : DecidableEq Obj := decObj

/-- `res[key] = val` on a Python dict: an existing key keeps its place. -/
def dictSet : List (Bytes × Obj) → Bytes → Obj → List (Bytes × Obj)
  | [], k, v => [(k, v)]
  | (k', v') :: es, k, v => if k' = k then (k, v) :: es else (k', v') :: dictSet es k v

/-- `d.get(key)` / `d[key]`. -/
def dictGet : List (Bytes × Obj) → Bytes → Option Obj
  | [], _ => none
  | (k', v') :: es, k => if k' = k then some v' else dictGet es k

end PdfReader
