/-
  Specification of encrypted documents with an object stream and a cross-reference stream (ISO 32000-1, 7.5.7, 7.5.8 and 7.6): the object stream
  is encrypted like every stream, what is in it is not encrypted again, and the cross-reference stream is not encrypted.
-/
import Verif.Spec.Sealed
import Verif.Spec.Write
import Verif.Spec.TextFile

namespace PdfReader.Spec

/-- An object encrypted, as it is written by itself. -/
def sealItem (X : Ciphers) (key : Bytes) (m : Method) (iv : Nat → Nat → Bytes) (i : FileItem) : FileItem :=
  ⟨i.num, i.gen, sealObj X key m (iv i.num i.gen) i.num i.gen i.val⟩

/-- Encrypts a document which is written with an object stream: the streams written by themselves, and the encoded data of the object stream.
The data of the cross-reference stream are encoded as before. -/
def Compressed.seal (X : Ciphers) (key : Bytes) (m : Method) (iv : Nat → Nat → Bytes) (c : Compressed) : Compressed :=
  { c with
    items := c.items.map (sealItem X key m iv),
    encode := fun data => if data = c.packData then sealData X key m (iv c.pack 0) c.pack 0 (c.encode data) else c.encode data }

/-- Documents which can be written encrypted: every stream written by itself is one which is encrypted, no object written by itself is a string, numbers
below 2^32. -/
structure Compressed.Sealable (d : List (Bytes × Obj)) (c : Compressed) : Prop where
  streams : ∀ i ∈ c.items, ∀ es data, i.val = .stream es data → Covered d es
  strings : ∀ i ∈ c.items, (∀ s, i.val ≠ .str s) ∧ ∀ s, i.val ≠ .hex s
  nums : ∀ i ∈ c.items, i.num < 4294967296

/-- What the reader makes of it: the objects, streams with the padding of AES (C71); of the cross-reference stream nothing is said. -/
def Compressed.openedContent (m : Method) (c : Compressed) : Content := fun n g =>
  if n = c.xref then none else (c.content n g).map (openedObj m)

/-- The document made of texts with its dictionaries in an object stream, to be encrypted: with the encryption dictionary as one more object, written by
itself, and the entries Encrypt and ID in the trailer. -/
def secretPacked (how : List (Bytes × Obj)) (encode : Bytes → Bytes) (pages : List (List Bytes)) (d : List (Bytes × Obj)) (id : Obj) : Compressed :=
  { textPacked how encode pages with
    items := contentItems how encode 4 pages ++ [⟨6 + 2 * pages.length, 0, .dict d⟩],
    trailer := [(b!"Root", .ref 1 0), (b!"Encrypt", .ref (6 + 2 * pages.length) 0), (b!"ID", id)] }

end PdfReader.Spec
