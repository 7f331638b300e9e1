/-
  C142: the dictionaries and streams for which the package has classes (pdfreader/types/objects.py), by the names ISO 32000-1 gives their Type. The lists are written from
  the standard, not from the tables of the code.
-/
import Verif.Spec.Objects

namespace PdfReader.Spec

/-- Values of Type of the dictionaries which have a class. -/
def dictionaryTypes : List Bytes :=
  [b!"Action", b!"Annot", b!"Bead", b!"Border", b!"Catalog", b!"Collection", b!"CollectionField", b!"CollectionSchema", b!"CollectionSort", b!"Encoding",
   b!"FWParams", b!"Font", b!"FontDescriptor", b!"Halftone", b!"MCR", b!"MediaClip", b!"MediaCriteria", b!"MediaDuration", b!"MediaOffset", b!"MediaPermissions",
   b!"MediaPlayerInfo", b!"MediaPlayers", b!"MediaScreenParams", b!"MinBitDepth", b!"MinScreenSize", b!"NavNode", b!"OBJR", b!"OCG", b!"OCMD", b!"Outlines", b!"Page",
   b!"PageLabel", b!"Pages", b!"Rendition", b!"ReqHandler", b!"Requirement", b!"Sig", b!"SigRef", b!"SlideShow", b!"SoftwareIdentifier", b!"StructElem",
   b!"StructTreeRoot", b!"Thread", b!"Timespan", b!"Trans", b!"TransformParams"]

/-- Type and Subtype of the streams which have a class, with the name of the class. -/
def streamTypes : List (Bytes × Option Bytes × Bytes) :=
  [(b!"XObject", some b!"Image", b!"Image"), (b!"XObject", some b!"Form", b!"Form"), (b!"Metadata", some b!"XML", b!"Metadata"), (b!"CMap", none, b!"CMap"),
   (b!"ObjStm", none, b!"ObjectStream")]

/-- `e` is the object `o` itself, or refers to it. -/
def Stands (store : Store) (e o : Obj) : Prop := e = o ∨ ∃ n g, e = .ref n g ∧ store n g = some o

/-- Dictionaries with their Types. -/
structure Typed (store : Store) (e : Obj) (ds : List (Bytes × Obj)) (t : Bytes) : Prop where
  stands : Stands store e (.dict ds)
  type : dictGet ds b!"Type" = some (.name t)

end PdfReader.Spec
