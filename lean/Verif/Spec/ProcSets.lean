/-
  Procedure sets of pages (7.8.3).
-/
import Verif.Spec.Objects

namespace PdfReader.Spec

/-- A page or one of its ancestors has this name in its procedure sets. -/
def ProcSetNames (chain : List (List (Bytes × Category))) (name : Bytes) : Prop := ∃ own ∈ chain, ∃ names, (b!"ProcSet", .procs names) ∈ own ∧ name ∈ names

end PdfReader.Spec
