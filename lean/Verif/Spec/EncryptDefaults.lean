/-
  Optional entries of encryption dictionaries and their defaults, PDF 32000-1:2008, tables 20 and 21.
-/
import Verif.Model.Security

namespace PdfReader.Spec

/-- What a missing entry stands for. -/
def encryptDefaults : List (Bytes × Obj) :=
  [(b!"V", .int 0), (b!"Length", .int 40), (b!"EncryptMetadata", .bool true), (b!"CF", .dict []), (b!"StmF", .name b!"Identity"), (b!"StrF", .name b!"Identity")]

/-- The entries which have a meaning for the standard security handler. -/
def encryptEntries : List Bytes :=
  [b!"V", b!"R", b!"P", b!"O", b!"U", b!"OE", b!"UE", b!"Length", b!"EncryptMetadata", b!"CF", b!"StmF", b!"StrF"]

end PdfReader.Spec
