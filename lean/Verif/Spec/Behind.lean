/-
  Streams whose Length is an object which no cross-reference section need list, but which stands right behind the stream
  (the case for which `next_brute_force_object` was written, see its comment in parsers/document.py). Refers to the model of the
  code for the types only.
-/
import Verif.Spec.Hidden
import Verif.Spec.File
import Verif.Model.Locate

namespace PdfReader.Spec
open PdfReader

/-- A sequence of indirect objects and `startxref` elements with any separators before, between and after them. The Length of a stream may
be a reference to the object which follows it, if `endobj` does not occur within the stream, or to one which is `listed`. -/
inductive ScanText (listed : Nat → Nat → Obj → Prop) : List (Nat × Nat × Obj) → Bytes → Prop
  | nil (s : Bytes) : Sep s → ScanText listed [] s
  | plain (n g : Nat) (o : Obj) (es : List (Nat × Nat × Obj)) (s t u : Bytes) : Sep s → IndText n g o t → ScanText listed es u →
      ScanText listed ((n, g, o) :: es) (s ++ (t ++ u))
  | far (n g : Nat) (o : Obj) (ln lg len : Nat) (es : List (Nat × Nat × Obj)) (s t u : Bytes) : Sep s → LenText ln lg len n g o t →
      listed ln lg (.int (len : Nat)) → ScanText listed es u → ScanText listed ((n, g, o) :: es) (s ++ (t ++ u))
  | behind (n g : Nat) (o : Obj) (ln lg len : Nat) (es : List (Nat × Nat × Obj)) (s t s' t' u : Bytes) : Sep s → LenText ln lg len n g o t → EndsOnce t →
      Sep s' → IndText ln lg (.int (len : Nat)) t' → ScanText listed es u →
      ScanText listed ((n, g, o) :: (ln, lg, .int (len : Nat)) :: es) (s ++ (t ++ (s' ++ (t' ++ u))))
  | startxref (es : List (Nat × Nat × Obj)) (s s₁ ds u : Bytes) : Sep s → Sep s₁ → Digits ds → u ≠ [] → NotStart (fun c => Digit c ∨ c = 46) u →
      ScanText listed es u → ScanText listed es (s ++ (b!"startxref" ++ (s₁ ++ (ds ++ u))))

/-- The object `n g` with the value `o` stands at this offset; the Length of a stream may be any of the objects `es`. -/
def StandsIn (file : Bytes) (es : List (Nat × Nat × Obj)) (n g : Nat) (o : Obj) (off : Nat) : Prop :=
  ∃ t rest, file.drop off = t ++ rest ∧ (IndText n g o t ∨ ∃ ln lg len, LenText ln lg len n g o t ∧ (ln, lg, .int (len : Nat)) ∈ es)

/-- What follows the scanned body is the end of the file or begins no element of a body: `xref`, for example. -/
def NoElement (x : Bytes) : Prop := NotStart (fun c => SepChar c ∨ Digit c ∨ c = 115 ∨ c = 116) x

/-- The file consists, from `start` on, of the objects `es`, no two of them with the same number and generation and none an object stream; and
what the sections list in use stands at the offsets they give. They need not list everything. -/
structure ScanFile (file : Bytes) (start : Nat) (revs : List Revision) (es : List (Nat × Nat × Obj)) : Prop where
  body : ∃ body tail, file.drop start = body ++ tail ∧ ScanText (fun n g o => (n, g, o) ∈ es ∧ ∃ r ∈ revs, ∃ off, r.inUse n = some (off, g)) es body ∧ NoElement tail
  once : (es.map fun e => (e.1, e.2.1)).Nodup
  noPack : ∀ e ∈ es, NoPack e.2.2
  listed : ∀ r ∈ revs, ∀ n off g, r.inUse n = some (off, g) → ∃ o, (n, g, o) ∈ es ∧ StandsIn file es n g o off
  own : ∀ r ∈ revs, ∀ n g v, r.own = some (n, g, v) → (n, g, v) ∈ es

/-- When the search for a Length gives up, the parser stands within the stream whose Length it is, before its `endobj`. (In the code: at
the word `stream`.) -/
def SeeksWithin (file : Bytes) (seek : St → Nat → Nat) : Prop :=
  ∀ s off ln lg len n g o t rest, file.drop off = t ++ rest → LenText ln lg len n g o t → off ≤ seek s off ∧ seek s off + 6 ≤ off + t.length

end PdfReader.Spec
