/-
  Files to which bytes were added after they were complete: updates which were interrupted.
-/
import Verif.Spec.File
import Verif.Spec.Write

namespace PdfReader.Spec

/-- The bytes `x` after `file` do not finish an update: every `startxref` which is followed by a `%%EOF` is followed by one in `file`. -/
def Pending (file x : Bytes) : Prop :=
  ∀ s j, OccursAt b!"startxref" (file ++ x) s → OccursAt b!"%%EOF" (file ++ x) j → s + 9 ≤ j → ∃ j', OccursAt b!"%%EOF" file j' ∧ s + 9 ≤ j'

/-- There is a `%%EOF` within the last 1023 bytes. -/
def EndNear (file : Bytes) : Prop := ∃ j, OccursAt b!"%%EOF" file j ∧ file.length ≤ j + 1023

/-- No data of a stream contain `%%EOF`. -/
def Draft.NoEnd (d : Draft) : Prop := ∀ i ∈ d.items, ∀ e data, i.val = .stream e data → ∀ k, ¬ OccursAt b!"%%EOF" data k

end PdfReader.Spec
