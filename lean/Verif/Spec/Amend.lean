/-
  C118: a document with an object stream and a cross-reference stream (Spec/Write.lean, `Compressed`), followed by any number of updates, each
  with a cross-reference stream of its own.
-/
import Verif.Spec.Write

namespace PdfReader.Spec

/-- An update: new values of the objects `first`, `first + 1`, …, all with generation 0; the number of its cross-reference stream; the value of Size, and the other entries
of its trailer. -/
structure Amend where
  first : Nat
  vals : List Obj
  xref : Nat
  size : Nat
  trailer : List (Bytes × Obj)

namespace Amend

/-- Objects with consecutive numbers. -/
def from_ : Nat → List Obj → List FileItem
  | _, [] => []
  | n, v :: vs => ⟨n, 0, v⟩ :: from_ (n + 1) vs

def items (u : Amend) : List FileItem := from_ u.first u.vals

/-- Where the object `first + i` is, when the update begins at offset `start`. -/
def place (u : Amend) (start i : Nat) : Nat := start + (showBody (u.items.take i)).length

/-- The rows of the cross-reference stream. -/
def rows (u : Amend) (start : Nat) : List Row := (List.range u.vals.length).map fun i => ⟨1, u.place start i, 0⟩

def data (u : Amend) (start : Nat) : Bytes := (u.rows start).flatMap (Row.text 1 4 4)

def dict (u : Amend) (how : List (Bytes × Obj)) (encode : Bytes → Bytes) (start prev : Nat) : List (Bytes × Obj) :=
  [(b!"Type", .name b!"XRef"), (b!"W", .arr [.int 1, .int 4, .int 4]), (b!"Length", .int (encode (u.data start)).length), (b!"Size", .int u.size),
    (b!"Index", .arr [.int u.first, .int u.vals.length]), (b!"Prev", .int prev)] ++ (how ++ u.trailer)

/-- The cross-reference stream. -/
def xrefItem (u : Amend) (how : List (Bytes × Obj)) (encode : Bytes → Bytes) (start prev : Nat) : FileItem :=
  ⟨u.xref, 0, .stream (u.dict how encode start prev) (encode (u.data start))⟩

/-- Where the cross-reference stream begins. -/
def offset (u : Amend) (start : Nat) : Nat := start + (showBody u.items).length

/-- The text of an update which begins at offset `start`. -/
def text (u : Amend) (how : List (Bytes × Obj)) (encode : Bytes → Bytes) (start prev : Nat) : Bytes :=
  showBody (u.items ++ [u.xrefItem how encode start prev]) ++ (b!"startxref" ++ ([10] ++ (showNat (u.offset start) ++ ([10] ++ (b!"%%EOF" ++ [10])))))

end Amend

/-- The file with its updates, newest first, and the offset of the newest cross-reference stream. -/
def amended (c : Compressed) : List Amend → Bytes × Nat
  | [] => (c.write, c.offset)
  | u :: us => ((amended c us).1 ++ u.text c.how c.encode (amended c us).1.length (amended c us).2, u.offset (amended c us).1.length)

/-- The objects of the document which are not in the object stream: their newest values. -/
def amendedContent (c : Compressed) : List Amend → Nat → Nat → Option Obj
  | [], n, g => (c.items.find? fun i => i.num == n && i.gen == g).map (·.val)
  | u :: us, n, g => if g = 0 ∧ u.first ≤ n ∧ n < u.first + u.vals.length then u.vals[n - u.first]? else amendedContent c us n g

/-- Updates which can be written: as for `Compressed`. -/
structure Amend.Ok (u : Amend) : Prop where
  vals : ∀ v ∈ u.vals, WritableValue v
  plain : ∀ v ∈ u.vals, ∀ e data, v = .stream e data → ∀ x, (b!"Type", x) ∈ e → x ∉ [.name b!"ObjStm", .hex b!"ObjStm", .token b!"ObjStm"]
  keys : (u.trailer.map (·.1)).Nodup
  ents : WritableEnts u.trailer
  reserved : ∀ k ∈ [b!"Type", b!"W", b!"Length", b!"Size", b!"Index", b!"Prev", b!"Filter", b!"DecodeParms"], k ∉ u.trailer.map (·.1)

/-- A document with updates: offsets fit in four bytes, and the cross-reference streams have numbers of their own. -/
structure AmendsOk (c : Compressed) (us : List Amend) : Prop where
  base : c.Ok
  each : ∀ u ∈ us, u.Ok
  length : (amended c us).1.length < 256 ^ 4
  own : amendedContent c us c.xref 0 = none ∧ ∀ u ∈ us, amendedContent c us u.xref 0 = none

end PdfReader.Spec
