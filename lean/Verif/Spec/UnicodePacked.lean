/-
  Documents made of texts in any script, with their dictionaries in an object stream: a writer.
-/
import Verif.Spec.UnicodeFile

namespace PdfReader.Spec

/-- The document with its dictionaries in an object stream and with a cross-reference stream. The contents of the pages and the CMap are objects of their own. -/
def glyphPacked (how : List (Bytes × Obj)) (encode : Bytes → Bytes) (table : List (Nat × Text)) (pages : List (List (List Nat))) : Compressed where
  how := how
  encode := encode
  items := contentItems how encode 4 (codedLines pages) ++ [mapItem how encode table (codedLines pages)]
  members := glyphObjects (codedLines pages)
  pack := 5 + 2 * pages.length
  xref := 6 + 2 * pages.length
  trailer := [(b!"Root", .ref 1 0)]

end PdfReader.Spec
