/-
  Documents made of texts: a writer of files whose pages show given lines, as plain as possible, and with an object stream and a
  cross-reference stream.
-/
import Verif.Spec.Write

namespace PdfReader.Spec

/-- The content of a page which shows the lines, each by an operator of its own. -/
def textContent (lines : List Bytes) : Bytes :=
  b!"BT /F1 12 Tf" ++ (lines.flatMap (fun l => b!" (" ++ (showStr l ++ b!") Tj")) ++ b!" ET")

def catalogDict : List (Bytes × Obj) := [(b!"Type", .name b!"Catalog"), (b!"Pages", .ref 2 0)]

def fontEntries : List (Bytes × Obj) :=
  [(b!"Type", .name b!"Font"), (b!"Subtype", .name b!"Type1"), (b!"BaseFont", .name b!"Helvetica"), (b!"Encoding", .name b!"WinAnsiEncoding")]

/-- The page with number `k`; its content is the object `k + 1`. -/
def pageEntries (k : Nat) : List (Bytes × Obj) := [(b!"Type", .name b!"Page"), (b!"Parent", .ref 2 0), (b!"Contents", .ref (k + 1) 0)]

/-- The numbers of the pages, from `k` on. -/
def pageNumbers : Nat → List (List Bytes) → List Nat
  | _, [] => []
  | k, _ :: ps => k :: pageNumbers (k + 2) ps

/-- The root of the page tree. All pages inherit the font. -/
def treeEntries (pages : List (List Bytes)) : List (Bytes × Obj) :=
  [(b!"Type", .name b!"Pages"), (b!"Kids", .arr ((pageNumbers 4 pages).map fun k => .ref k 0)), (b!"Count", .int pages.length),
    (b!"Resources", .dict [(b!"Font", .dict [(b!"F1", .ref 3 0)])])]

/-- The dictionaries of the document with their numbers. -/
def textObjects (pages : List (List Bytes)) : List (Nat × Obj) :=
  [(1, .dict catalogDict), (2, .dict (treeEntries pages)), (3, .dict fontEntries)] ++ (pageNumbers 4 pages).map fun k => (k, .dict (pageEntries k))

/-- The content streams, encoded. -/
def contentItems (how : List (Bytes × Obj)) (encode : Bytes → Bytes) : Nat → List (List Bytes) → List FileItem
  | _, [] => []
  | k, lines :: ps =>
    ⟨k + 1, 0, .stream ((b!"Length", .int (encode (textContent lines)).length) :: how) (encode (textContent lines))⟩ :: contentItems how encode (k + 2) ps

/-- The document with a cross-reference table. -/
def textDraft (how : List (Bytes × Obj)) (encode : Bytes → Bytes) (pages : List (List Bytes)) : Draft where
  items := (textObjects pages).map (fun m => ⟨m.1, 0, m.2⟩) ++ contentItems how encode 4 pages
  trailer := [(b!"Size", .int (4 + 2 * pages.length : Nat)), (b!"Root", .ref 1 0)]

/-- The document with its dictionaries in an object stream. -/
def textPacked (how : List (Bytes × Obj)) (encode : Bytes → Bytes) (pages : List (List Bytes)) : Compressed where
  how := how
  encode := encode
  items := contentItems how encode 4 pages
  members := textObjects pages
  pack := 4 + 2 * pages.length
  xref := 5 + 2 * pages.length
  trailer := [(b!"Root", .ref 1 0)]

end PdfReader.Spec
