/-
  Where the objects of a document can come from: the definitions a file contains.
-/
import Verif.Model.Locate

namespace PdfReader.Spec

mutual
/-- `Source env start reg0 k v`: the file has a definition of the indirect object `k` with value `v`: it was known
when the file was opened (`reg0`), or an indirect object stands at a place where one is looked for, or an object
stream contains it. An indirect `Length` in a definition stands for a value which is itself defined. -/
inductive Source (env : Env) (start : Nat) (reg0 : List (Key × Obj)) : Key → Obj → Prop
  | known (k : Key) (v : Obj) : regGet reg0 k = some v → Source env start reg0 k v
  | body (off n g : Nat) (lens : List (Key × Obj)) (v w : Obj) (r : Bytes) : ObjPos env start reg0 off →
      (∀ k x, regGet lens k = some x → x ≠ .null → Source env start reg0 k x) →
      indirectObject (askCfg lens) (env.file.drop off) = .ok ((n, g, v), r) → env.dec n g v = .ok w →
      Source env start reg0 (n, g) w
  | compressed (k : Key) (d : List (Bytes × Obj)) (raw data : Bytes) (first : Obj) (ms : List (Nat × Nat)) (n off : Nat)
      (v : Obj) : Source env start reg0 k (.stream d raw) → isObjStm (.stream d raw) = true →
      objStmDir env.filtered d raw = .ok (data, first, ms) → (n, off) ∈ ms → member data first off = .ok v →
      Source env start reg0 (n, 0) v
/-- Where objects are looked for: at the offsets of in-use entries, and when the file is read from the
header on. -/
inductive ObjPos (env : Env) (start : Nat) (reg0 : List (Key × Obj)) : Nat → Prop
  | listed (x : XRef) (n : Nat) (e : XEntry) : x ∈ env.xrefs → natGet x.inUse n = some e → ObjPos env start reg0 e.offset
  | scanned (b : Nat) (r : Bytes) : ScanPos env start reg0 b → skipSC false (env.file.drop b) = .ok r →
      ObjPos env start reg0 (env.file.length - r.length)
/-- Places where the next element of the file is looked for: after the header, after an element, or after any
`endobj`. -/
inductive ScanPos (env : Env) (start : Nat) (reg0 : List (Key × Obj)) : Nat → Prop
  | start : ScanPos env start reg0 start
  | afterObject (off : Nat) (lens : List (Key × Obj)) (x : Nat × Nat × Obj) (r : Bytes) : ObjPos env start reg0 off →
      (∀ k x, regGet lens k = some x → x ≠ .null → Source env start reg0 k x) →
      indirectObject (askCfg lens) (env.file.drop off) = .ok (x, r) → ScanPos env start reg0 (env.file.length - r.length)
  | afterStartxref (off n : Nat) (r : Bytes) : ObjPos env start reg0 off → startxrefP (env.file.drop off) = .ok (n, r) →
      ScanPos env start reg0 (env.file.length - r.length)
  | afterEndobj (q p : Nat) : nextObject env.file q = .ok p → ScanPos env start reg0 p
end

end PdfReader.Spec
