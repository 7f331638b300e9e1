/-
  C147: when two objects are equal.
-/
import Verif.Model.Object

namespace PdfReader.Spec

/-- `o` is the number `c / 10 ^ k`; `true` counts as one and `false` as zero. -/
inductive Number : Obj → Int → Nat → Prop
  | yes : Number (.bool true) 1 0
  | no : Number (.bool false) 0 0
  | int (n : Int) : Number (.int n) n 0
  | real (c : Int) (k : Nat) : Number (.real c (-(k : Int))) c k

/-- `o` is a name, a hexadecimal string or a word with the characters `t`. -/
inductive Chars : Obj → Bytes → Prop
  | name (t : Bytes) : Chars (.name t) t
  | hex (t : Bytes) : Chars (.hex t) t
  | token (t : Bytes) : Chars (.token t) t

/-- Equal objects: numbers with the same value; the same characters, whether of a name or a hexadecimal string; the same literal string; the same reference; arrays with equal elements;
dictionaries with the same keys and equal values, in any order; streams with equal dictionaries and the same data. -/
inductive Equal : Obj → Obj → Prop
  | null : Equal .null .null
  | number (a b : Obj) (c d : Int) (j k : Nat) : Number a c j → Number b d k → c * 10 ^ k = d * 10 ^ j → Equal a b
  | chars (a b : Obj) (t : Bytes) : Chars a t → Chars b t → Equal a b
  | str (t : Bytes) : Equal (.str t) (.str t)
  | ref (n g : Nat) : Equal (.ref n g) (.ref n g)
  | arr (xs ys : List Obj) : xs.length = ys.length → (∀ (i : Nat) (x y : Obj), xs[i]? = some x → ys[i]? = some y → Equal x y) → Equal (.arr xs) (.arr ys)
  | dict (es fs : List (Bytes × Obj)) (value : Bytes → Obj) : (∀ k, dictGet es k = none ↔ dictGet fs k = none) →
      (∀ k v, dictGet es k = some v → dictGet fs k = some (value k)) → (∀ k v, dictGet es k = some v → Equal v (value k)) → Equal (.dict es) (.dict fs)
  | stream (d e : List (Bytes × Obj)) (data : Bytes) : Equal (.dict d) (.dict e) → Equal (.stream d data) (.stream e data)

mutual
/-- Objects as they are parsed: keys are distinct, reals are decimals, there are no inline images; and no stream has an entry with the key `num`. -/
def Usual : Obj → Prop
  | .arr xs => UsualItems xs
  | .dict es => (es.map (·.1)).Nodup ∧ UsualEnts es
  | .stream d _ => (d.map (·.1)).Nodup ∧ UsualEnts d ∧ b!"num" ∉ d.map (·.1)
  | .real _ e => e ≤ 0
  | .image _ _ => False
  | _ => True
def UsualItems : List Obj → Prop
  | [] => True
  | x :: xs => Usual x ∧ UsualItems xs
def UsualEnts : List (Bytes × Obj) → Prop
  | [] => True
  | e :: es => Usual e.2 ∧ UsualEnts es
end

mutual
/-- Objects without references and streams. -/
def Closed : Obj → Prop
  | .arr xs => ClosedItems xs
  | .dict es => ClosedEnts es
  | .stream _ _ => False
  | .ref _ _ => False
  | _ => True
def ClosedItems : List Obj → Prop
  | [] => True
  | x :: xs => Closed x ∧ ClosedItems xs
def ClosedEnts : List (Bytes × Obj) → Prop
  | [] => True
  | e :: es => Closed e.2 ∧ ClosedEnts es
end

end PdfReader.Spec
