/-
  Documents made of texts in any script: a writer of files whose font says by a ToUnicode CMap which characters the codes mean.
-/
import Verif.Spec.TextFile
import Verif.Spec.CMap

namespace PdfReader.Spec

/-- A number below 65536 in four hexadecimal digits. -/
def hex4 (n : Nat) : Bytes := hexPair (UInt8.ofNat (n / 256)) ++ hexPair (UInt8.ofNat (n % 256))

/-- … and in two bytes. -/
def twoBytes (n : Nat) : Bytes := [UInt8.ofNat (n / 256), UInt8.ofNat (n % 256)]

/-- A row of the CMap, in a section of its own. -/
def mapRow (r : Nat × Text) : Bytes := b!" 1 beginbfchar <" ++ (hex4 r.1 ++ (b!"> <" ++ (r.2.flatMap hex4 ++ b!"> endbfchar")))

/-- The CMap with the characters of the codes. -/
def mapText (table : List (Nat × Text)) : Bytes :=
  b!" /CIDInit /ProcSet findresource begin 9 dict begin begincmap 1 begincodespacerange <0000> <FFFF> endcodespacerange" ++
    (table.flatMap mapRow ++ b!" endcmap ")

/-- The characters of a code: those of the first row which has it. -/
def meaning (table : List (Nat × Text)) (k : Nat) : Text := ((table.find? (·.1 == k)).map (·.2)).getD []

/-- A composite font with the CMap in object `m`. -/
def compositeEntries (m : Nat) : List (Bytes × Obj) :=
  [(b!"Type", .name b!"Font"), (b!"Subtype", .name b!"Type0"), (b!"BaseFont", .name b!"Any"), (b!"Encoding", .name b!"Identity-H"),
    (b!"DescendantFonts", .arr [.dict [(b!"Type", .name b!"Font"), (b!"Subtype", .name b!"CIDFontType2"), (b!"BaseFont", .name b!"Any")]]), (b!"ToUnicode", .ref m 0)]

/-- The lines of a page as strings of codes. -/
def codedLines (pages : List (List (List Nat))) : List (List Bytes) := pages.map fun lines => lines.map fun l => l.flatMap twoBytes

/-- The number of the CMap. -/
def mapNumber (pages : List (List Bytes)) : Nat := 4 + 2 * pages.length

/-- The dictionaries of the document with their numbers. -/
def glyphObjects (pages : List (List Bytes)) : List (Nat × Obj) :=
  [(1, .dict catalogDict), (2, .dict (treeEntries pages)), (3, .dict (compositeEntries (mapNumber pages)))] ++ (pageNumbers 4 pages).map fun k => (k, .dict (pageEntries k))

/-- The CMap as an object. -/
def mapItem (how : List (Bytes × Obj)) (encode : Bytes → Bytes) (table : List (Nat × Text)) (pages : List (List Bytes)) : FileItem :=
  ⟨mapNumber pages, 0, .stream ((b!"Length", .int (encode (mapText table)).length) :: how) (encode (mapText table))⟩

/-- The document with a cross-reference table. -/
def glyphDraft (how : List (Bytes × Obj)) (encode : Bytes → Bytes) (table : List (Nat × Text)) (pages : List (List (List Nat))) : Draft where
  items := (glyphObjects (codedLines pages)).map (fun m => ⟨m.1, 0, m.2⟩) ++ (contentItems how encode 4 (codedLines pages) ++ [mapItem how encode table (codedLines pages)])
  trailer := [(b!"Size", .int (5 + 2 * pages.length : Nat)), (b!"Root", .ref 1 0)]

/-- The CMap by which every code means the character with this number, for the characters of the pages. -/
def identityTable (pages : List (List Text)) : List (Nat × Text) := pages.flatten.flatten.eraseDups.map fun c => (c, [c])

end PdfReader.Spec
