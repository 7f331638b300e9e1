/-
  C146: a document with updates with cross-reference streams (Spec/Amend.lean) of which only the first bytes were written.
-/
import Verif.Spec.Amend
import Verif.Spec.Crash

namespace PdfReader.Spec

/-- No data of a stream contain `%%EOF`. -/
def NoEndIn (is : List FileItem) : Prop := ∀ i ∈ is, ∀ e data, i.val = .stream e data → ∀ k, ¬ OccursAt b!"%%EOF" data k

/-- No data of a stream which is written contain `%%EOF`; the encoded data of the object stream and the cross-reference streams neither. -/
def AmendsNoEnd (c : Compressed) : List Amend → Prop
  | [] => NoEndIn (c.body ++ [c.xrefItem])
  | u :: us => NoEndIn (u.items ++ [u.xrefItem c.how c.encode (amended c us).1.length (amended c us).2]) ∧ AmendsNoEnd c us

/-- `older` are the updates of `us` (newest first) which are finished after `p` bytes: all of the text up to the last of them is there, but perhaps the last line
feed; and the next one, if there is one, lacks more than that. -/
def FinishedU (c : Compressed) (us : List Amend) (p : Nat) (older : List Amend) : Prop :=
  ∃ newer, us = newer ++ older ∧ (amended c older).1.length ≤ p + 1 ∧ ∀ newest next, newer = newest ++ [next] → p + 1 < (amended c (next :: older)).1.length

/-- The entries of the newest trailer. -/
def newestTrailer (c : Compressed) : List Amend → List (Bytes × Obj)
  | [] => c.trailer
  | u :: _ => u.trailer

end PdfReader.Spec
