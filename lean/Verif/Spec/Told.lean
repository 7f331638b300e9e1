/-
  The text of a rendered page read as a content again.
-/
import Verif.Spec.Viewer
import Verif.Spec.Content

namespace PdfReader.Spec

/-- Encodings which write the 128 characters of ASCII as they are, and others with bytes from 128 on: UTF-8, and Latin-1 as far as it goes. -/
def AsciiBased (enc : Nat → Bytes) : Prop := (∀ c, c < 128 → enc c = [UInt8.ofNat c]) ∧ ∀ c, 128 ≤ c → ∀ b ∈ enc c, 128 ≤ b.toNat

/-- A text in bytes. -/
def encoded (enc : Nat → Bytes) (t : Text) : Bytes := t.flatMap enc

/-- A name which can be written without `#`. -/
def PlainName (n : Bytes) : Prop := ∀ c ∈ n, Regular c ∧ c ≠ 35 ∧ c.toNat < 128

/-- Operands which can be told: no strings, inside or outside of arrays and dictionaries, names without `#`, and no reals below one in a million with
more than six decimals. Each key of a dictionary is there once. -/
inductive Sayable : Obj → Prop
  | null : Sayable .null
  | bool (b : Bool) : Sayable (.bool b)
  | int (n : Int) : Sayable (.int n)
  | real (c e : Int) : e < 0 → -(10 ^ 28 : Int) < c → (e.natAbs ≤ 6 ∨ 10 ^ (e.natAbs - 6) ≤ c.natAbs) → Sayable (.real c e)
  | name (n : Bytes) : PlainName n → Sayable (.name n)
  | arr (xs : List Obj) : (∀ x ∈ xs, Sayable x) → Sayable (.arr xs)
  | dict (es : List (Bytes × Obj)) : (es.map (·.1)).Nodup → (∀ e ∈ es, PlainName e.1) → (∀ e ∈ es, Sayable e.2) → Sayable (.dict es)

/-- The array of TJ with its strings replaced by the texts they show. -/
inductive RetoldItems (enc : Nat → Bytes) : List Obj → List Text → List Obj → Prop
  | nil : RetoldItems enc [] [] []
  | string (o : Obj) (t : Text) (xs ys : List Obj) (ts : List Text) : ((∃ s, o = .str s) ∨ ∃ s, o = .hex s) → RetoldItems enc xs ts ys →
      RetoldItems enc (o :: xs) (t :: ts) (.str (encoded enc t) :: ys)
  | other (o : Obj) (xs ys : List Obj) (ts : List Text) : Sayable o → RetoldItems enc xs ts ys → RetoldItems enc (o :: xs) ts (o :: ys)

/-- `Retold enc cs ts ds`: `ds` are the commands `cs`, which show the texts `ts`, with the strings shown replaced by these texts. A dictionary is not
followed by an operator in `s` (it would be taken for a stream). -/
inductive Retold (enc : Nat → Bytes) : List Content → List Text → List Content → Prop
  | nil : Retold enc [] [] []
  | one (name : Bytes) (o : Obj) (t : Text) (cs ds : List Content) (ts : List Text) : name = b!"Tj" ∨ name = b!"'" → Retold enc cs ts ds →
      Retold enc (.op name [o] :: cs) (t :: ts) (.op name [.str (encoded enc t)] :: ds)
  | many (name : Bytes) (xs ys : List Obj) (us : List Text) (cs ds : List Content) (ts : List Text) : name = b!"TJ" → RetoldItems enc xs us ys →
      Retold enc cs ts ds → Retold enc (.op name [.arr xs] :: cs) (us ++ ts) (.op name [.arr ys] :: ds)
  | other (name : Bytes) (args : List Obj) (cs ds : List Content) (ts : List Text) : name ∉ [b!"Tj", b!"'", b!"TJ"] → (∀ o ∈ args, Sayable o) →
      (∀ d, args.getLast? = some (.dict d) → name.head? ≠ some 115) → Retold enc cs ts ds → Retold enc (.op name args :: cs) ts (.op name args :: ds)

end PdfReader.Spec
