/-
  Chains of references: objects whose value is a reference to another object.
-/
import Verif.Spec.Objects

namespace PdfReader.Spec

/-- Following references from `n g`, the `k`-th object found is `o`, which is no reference. -/
inductive Leads (store : Store) : Nat → Nat → Nat → Obj → Prop
  | here (n g : Nat) (o : Obj) : store n g = some o → (∀ a b, o ≠ .ref a b) → Leads store n g 1 o
  | step (n g n' g' k : Nat) (o : Obj) : store n g = some (.ref n' g') → Leads store n' g' k o → Leads store n g (k + 1) o

/-- `x` is the object `y` without parts, or a reference which leads to it over at most one other reference. -/
inductive Near (store : Store) : Obj → Obj → Prop
  | self (y : Obj) : Atomic y → Near store y y
  | ref (n g k : Nat) (y : Obj) : Leads store n g k y → k ≤ 2 → Atomic y → Near store (.ref n g) y

/-- Elementwise. -/
inductive AllNear (store : Store) : List Obj → List Obj → Prop
  | nil : AllNear store [] []
  | cons (x y : Obj) (xs ys : List Obj) : Near store x y → AllNear store xs ys → AllNear store (x :: xs) (y :: ys)

end PdfReader.Spec
