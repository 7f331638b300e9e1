/-
  The filters of a file with the facsimile decoder in its place: pdfreader/filters/__init__.py:3-14, filters/ccittfax.py:542-553, filters/dct.py.
-/
import Verif.Model.Fax
import Verif.Model.StreamData

namespace PdfReader

/-- `K == -1`, ccittfax.py:547: numbers are compared by value; parsed decimals have exponents up to 0. -/
def isGroup4 : Option Obj → Bool
  | some (.int n) => n == -1
  | some (.real c e) => decide (e ≤ 0) && c == -((10 ^ e.natAbs : Nat) : Int)
  | _ => false

/-- `[1]*width`, ccittfax.py:329-331: an integer (a boolean is one) or TypeError. Simplification: a negative number of columns counts as none. -/
def columnsOf : Option Obj → Option Nat
  | some (.int n) => some n.toNat
  | some (.bool b) => some b.toNat
  | _ => none

/-- `if self.bytealign`, `if self.reversed`: a missing entry is false. -/
def flagOf (o : Option Obj) : Bool := truthy (o.getD .null)

/-- The exceptions of the decoder. Simplification: `InvalidData` (ccittfax.py:303), an exception of its own, is not told from ValueError. -/
def faxExc : FaxExc → Exc
  | .invalidData => .valueError
  | .indexError => .indexError
  | .typeError => .typeError

/-- `ccittfaxdecode(data, params)` with `params or {}` for parameters as they are parsed, ccittfax.py:542-553: what has no `get` fails. -/
def ccittFilter (parms : Option Obj) (data : Bytes) : Res Bytes :=
  match parms with
  | some (.dict es) => run es
  | some o => if truthy o then .error .attributeError else run []
  | none => run []
where
  /-- the parameters of the decoder -/
  run (es : List (Bytes × Obj)) : Res Bytes :=
    match faxDecode data (if isGroup4 (dictGet es b!"K") then some (-1) else none) (columnsOf (dictGet es b!"Columns"))
      (flagOf (dictGet es b!"EncodedByteAlign")) (flagOf (dictGet es b!"BlackIs1")) with
    | .ok out => .ok out
    | .error e => .error (faxExc e)

/-- `Stream.filtered` of a stream in a file, types/native.py:109-114, with zlib's `inflate` as a parameter. DCTDecode always fails with
TypeError: `Image.frombytes(binary)` lacks two arguments (filters/dct.py:8). -/
def fileData (inflate : Bytes → Option Bytes) (d : List (Bytes × Obj)) (data : Bytes) : Res Bytes :=
  streamData { inflate := inflate, ccitt := fun b _ => ccittFilter (dictGet d b!"DecodeParms") b, dct := fun _ => .error .typeError } d data

end PdfReader
