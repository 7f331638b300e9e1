/-
  The metadata of an open document, pdfreader/document.py:146-164, and the permissions of an encrypted one, pdfreader/securityhandler.py:73-80.
-/
import Verif.Model.Metadata
import Verif.Model.Objects
import Verif.Model.Security

namespace PdfReader

/-- `self.trailer.info`, types/filestructure.py:39-41, as `metadata` uses it: if it is true its attributes `num` and `gen` are read. -/
def infoEntry (trailer : List (Bytes × Obj)) : InfoEntry :=
  match (dictGet trailer b!"Info").getD .null with
  | .ref n g => .ref n g
  | o => if truthy o then .direct else .missing

/-- The dictionary as the parser delivers it; other objects have no `items()`. -/
def infoDict : Obj → Option InfoDict
  | .dict es => some (es.map fun e => (e.1, .raw e.2))
  | _ => none

/-- `doc.metadata`, document.py:146-164. Simplification: the first access; the loop assigns to the dictionary in the registry, what further accesses make of that is in
`Props/Metadata.lean` (`C88`). -/
def docMetadata {σ : Type} (L : DateLib) (loc : Locator σ) (trailer : List (Bytes × Obj)) : DM σ (Option InfoDict) := fun s =>
  match infoEntry trailer with
  | .missing => (.ok none, s)
  | .direct => (.error .attributeError, s)
  | .ref n g => ((metadata L (.ref n g) fun _ _ => (loc n g s).1.map infoDict), (loc n g s).2)

/-- `self.p & (1 << k)` for an integer of any size and sign, securityhandler.py:73-80. -/
def pyBit (p : Int) (k : Nat) : Bool := (p / 2 ^ k) % 2 == 1

/-- `is_printable`, `is_modifiable`, `is_extractable`, securityhandler.py:73-80. Simplification: P is an integer. -/
def Handler.flag (h : Handler) (k : Nat) : Res Bool :=
  match h.q.p with
  | .int p => .ok (pyBit p k)
  | _ => .error .typeError
def Handler.isPrintable (h : Handler) : Res Bool := h.flag 2
def Handler.isModifiable (h : Handler) : Res Bool := h.flag 3
def Handler.isExtractable (h : Handler) : Res Bool := h.flag 4

end PdfReader
