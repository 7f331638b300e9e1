/-
  What it means to resolve all references of an object.
-/
import Verif.Model.Eager
import Verif.Spec.Objects

namespace PdfReader.Spec

mutual
/-- The object with every reference in it, at any depth, replaced by the object it refers to. There is such a value only if no object
contains itself. -/
inductive Whole (store : Store) : Obj → Deep → Prop
  | atom (o : Obj) : Atomic o → Whole store o (.atom o)
  | arr (xs : List Obj) (ds : List Deep) : WholeItems store xs ds → Whole store (.arr xs) (.arr ds)
  | dict (es : List (Bytes × Obj)) (c : Option Bytes) (ds : List (Bytes × Deep)) : DictKind es c → WholeEntries store es ds →
      Whole store (.dict es) (.dict c ds)
  | stream (d : List (Bytes × Obj)) (data c : Bytes) (ds : List (Bytes × Deep)) : StreamKind d c → WholeEntries store d ds →
      Whole store (.stream d data) (.stream c ds data)
  | ref (n g : Nat) (o : Obj) (d : Deep) : store n g = some o → (∀ n g, o ≠ .ref n g) → Whole store o d → Whole store (.ref n g) d
/-- The elements of an array. -/
inductive WholeItems (store : Store) : List Obj → List Deep → Prop
  | nil : WholeItems store [] []
  | cons (x : Obj) (d : Deep) (xs : List Obj) (ds : List Deep) : Whole store x d → WholeItems store xs ds → WholeItems store (x :: xs) (d :: ds)
/-- The entries of a dictionary. -/
inductive WholeEntries (store : Store) : List (Bytes × Obj) → List (Bytes × Deep) → Prop
  | nil : WholeEntries store [] []
  | cons (k : Bytes) (x : Obj) (d : Deep) (es : List (Bytes × Obj)) (ds : List (Bytes × Deep)) : Whole store x d → WholeEntries store es ds →
      WholeEntries store ((k, x) :: es) ((k, d) :: ds)
end

/-- The object is this dictionary, refers to it, or is an array, direct or not, with such an element. -/
inductive Within (store : Store) (es : List (Bytes × Obj)) : Obj → Prop
  | here : Within store es (.dict es)
  | ref (n g : Nat) (o : Obj) : store n g = some o → (∀ n g, o ≠ .ref n g) → Within store es o → Within store es (.ref n g)
  | item (xs : List Obj) (x : Obj) : x ∈ xs → Within store es x → Within store es (.arr xs)

/-- The references anywhere in an object. -/
inductive RefsIn (D : Nat → Nat → Prop) : Obj → Prop
  | atom (o : Obj) : Atomic o → RefsIn D o
  | ref (n g : Nat) : D n g → RefsIn D (.ref n g)
  | arr (xs : List Obj) : (∀ x ∈ xs, RefsIn D x) → RefsIn D (.arr xs)
  | dict (es : List (Bytes × Obj)) : (∀ e ∈ es, RefsIn D e.2) → RefsIn D (.dict es)
  | stream (d : List (Bytes × Obj)) (data : Bytes) : (∀ e ∈ d, RefsIn D e.2) → RefsIn D (.stream d data)

/-- Every reference in a defined object is to a defined object. -/
def NoDangling (store : Store) : Prop := ∀ n g o, store n g = some o → RefsIn (fun n g => store n g ≠ none) o

end PdfReader.Spec
