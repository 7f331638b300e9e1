/-
  Encrypted documents made of texts in any script, with their dictionaries in an object stream: a writer.
-/
import Verif.Spec.UnicodePacked
import Verif.Spec.SealedStream

namespace PdfReader.Spec

/-- The document of texts in any script, to be encrypted: with the encryption dictionary as one more object, written by itself, and the entries Encrypt
and ID in the trailer. -/
def secretGlyphs (how : List (Bytes × Obj)) (encode : Bytes → Bytes) (table : List (Nat × Text)) (pages : List (List (List Nat))) (d : List (Bytes × Obj)) (id : Obj) : Compressed :=
  { glyphPacked how encode table pages with
    items := (glyphPacked how encode table pages).items ++ [⟨7 + 2 * pages.length, 0, .dict d⟩],
    trailer := [(b!"Root", .ref 1 0), (b!"Encrypt", .ref (7 + 2 * pages.length) 0), (b!"ID", id)] }

end PdfReader.Spec
