/-
  An encryption dictionary which no cross-reference section lists (damaged or sloppy files), in terms of the text of the file.
  Refers to the model of the code for the types of bytes and objects only.
-/
import Verif.Spec.Write
import Verif.Spec.File

namespace PdfReader.Spec

/-- How an indirect object begins, if its number, its generation and `obj` are separated by single spaces. -/
def plainHeader (n g : Nat) : Bytes := showNat n ++ (b!" " ++ (showNat g ++ b!" obj"))

/-- `endobj` stands at the end of `x` and nowhere else in `x`. -/
def EndsOnce (x : Bytes) : Prop := (∃ u, x = u ++ b!"endobj") ∧ ∀ k, OccursAt b!"endobj" x k → k + 6 = x.length

/-- A piece of the body up to its only `endobj` (an object, maybe after a section): after separators it does not begin with `hdr`; and it is longer than that. -/
def Piece (hdr x : Bytes) : Prop :=
  ∃ s t, x = s ++ t ∧ Sep s ∧ NotStart SepChar t ∧ EndsOnce x ∧ hdr.length < t.length ∧ ¬ hdr <+: t

/-- The dictionary `d` is written as object `n g` before the section at `off`: after the `endobj` of another object, its header spelled with
single spaces, and followed by other pieces which do not look like it; the section does not look like it, either. -/
def HiddenAt (file : Bytes) (off n g : Nat) (d : List (Bytes × Obj)) : Prop :=
  ∃ (pre s t : Bytes) (pieces : List Bytes) (gap sect : Bytes), file = pre ++ (b!"endobj" ++ (s ++ (t ++ (pieces.flatten ++ (gap ++ sect))))) ∧ sect = file.drop off ∧ Sep s ∧ IndText n g (.dict d) t ∧
    plainHeader n g <+: t ∧ EndsOnce (s ++ t) ∧ (∀ x ∈ pieces, Piece (plainHeader n g) x) ∧
    (∀ k, ¬ OccursAt b!"endobj" (gap ++ sect.take (plainHeader n g).length) k) ∧ (plainHeader n g).length ≤ sect.length ∧ ¬ plainHeader n g <+: sect

end PdfReader.Spec
