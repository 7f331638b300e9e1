/-
  Specification of encrypted documents (ISO 32000-1, 7.6): how streams are encrypted, which are, and which passwords unlock a document. The
  algorithms are in Spec/Security.
-/
import Verif.Spec.Security
import Verif.Spec.File
import Verif.Spec.TextFile

namespace PdfReader.Spec

/-- The ways to encrypt streams. -/
inductive Method where
  | rc4
  | aes128
  | aes256
  | identity

/-- The encryption dictionary `d` prescribes the method for streams: RC4 for versions 1 to 3; for versions 4 and 5 that of the crypt filter
named by StmF, none for Identity. -/
def MethodIs (d : List (Bytes × Obj)) (m : Method) : Prop :=
  ∃ v : Int, dictGet d b!"V" = some (.int v) ∧
    (((v = 1 ∨ v = 2 ∨ v = 3) ∧ m = .rc4) ∨
     ((v = 4 ∨ v = 5) ∧ dictGet d b!"StmF" = some (.name b!"Identity") ∧ m = .identity) ∨
     ((v = 4 ∨ v = 5) ∧ ∃ f cf fd name, dictGet d b!"StmF" = some (.name f) ∧ f ≠ b!"Identity" ∧ dictGet d b!"CF" = some (.dict cf) ∧
        dictGet cf f = some (.dict fd) ∧ dictGet fd b!"CFM" = some (.name name) ∧
        ((name = b!"V2" ∧ m = .rc4) ∨ (name = b!"AESV2" ∧ m = .aes128) ∨ (name = b!"AESV3" ∧ m = .aes256))))

/-- `raw` is `data` encrypted for object `n g`. AES: an initialization vector, then the data with their padding, in blocks. -/
inductive Sealed (X : Ciphers) (key : Bytes) (n g : Nat) : Method → Bytes → Bytes → Prop
  | rc4 (data : Bytes) : Sealed X key n g .rc4 data (X.rc4 (objectKey X key false n g) data)
  | aes128 (data iv : Bytes) (bs : List Bytes) : iv.length = 16 → (∀ b ∈ bs, b.length = 16) → bs.flatten = data ++ pkcs data →
      Sealed X key n g .aes128 data (iv ++ cbcEncrypt (X.aesEnc (objectKey X key true n g)) iv bs)
  | aes256 (data iv : Bytes) (bs : List Bytes) : iv.length = 16 → (∀ b ∈ bs, b.length = 16) → bs.flatten = data ++ pkcs data →
      Sealed X key n g .aes256 data (iv ++ cbcEncrypt (X.aesEnc key) iv bs)
  | identity (data : Bytes) : Sealed X key n g .identity data data

/-- What the reader makes of encrypted data: it leaves the padding of AES where it is (C71). -/
def opened : Method → Bytes → Bytes
  | .rc4, data => data
  | .aes128, data => data ++ pkcs data
  | .aes256, data => data ++ pkcs data
  | .identity, data => data

/-- Streams with dictionary `es` stay unencrypted: Metadata, if the encryption dictionary says so. -/
def Exempt (d es : List (Bytes × Obj)) : Prop :=
  (dictGet d b!"V" = some (.int 4) ∨ dictGet d b!"V" = some (.int 5)) ∧ dictGet es b!"Type" = some (.name b!"Metadata") ∧
    dictGet d b!"EncryptMetadata" = some (.bool false)

/-- Streams with dictionary `es` are encrypted. -/
def Covered (d es : List (Bytes × Obj)) : Prop :=
  dictGet d b!"V" = some (.int 1) ∨ dictGet d b!"V" = some (.int 2) ∨ dictGet d b!"V" = some (.int 3) ∨
    dictGet es b!"Type" ≠ some (.name b!"Metadata") ∨ dictGet d b!"EncryptMetadata" = none ∨ dictGet d b!"EncryptMetadata" = some (.bool true)

/-- How an object of an encrypted document is stored in the file: `Stored X key d n g o w`, with the encryption dictionary `d` and the file key, means
that the object `n g` which is delivered as `o` is written as `w`. Streams are encrypted; the Length of a delivered stream is that of its data.
Objects which are no streams are stored as they are delivered: the reader does not decrypt the strings in them (C45), and fails for indirect
objects which are strings themselves, so that there is no case for these. -/
inductive Stored (X : Ciphers) (key : Bytes) (d : List (Bytes × Obj)) (n g : Nat) : Obj → Obj → Prop
  | other (o : Obj) : (∀ es data, o ≠ .stream es data) → (∀ s, o ≠ .str s) → (∀ s, o ≠ .hex s) → Stored X key d n g o o
  | exempt (es : List (Bytes × Obj)) (data : Bytes) : Exempt d es → Stored X key d n g (.stream es data) (.stream es data)
  | stream (es : List (Bytes × Obj)) (m : Method) (data raw : Bytes) : Covered d es → MethodIs d m → Sealed X key n g m data raw →
      n < 4294967296 → g < 4294967296 →
      Stored X key d n g (.stream (dictSet es b!"Length" (.int (opened m data).length)) (opened m data)) (.stream es raw)

/-- The bytes `pw` are a password of the document with this ID in its trailer and this encryption dictionary, and `key` is the file key. For
versions 1 to 4 an owner password must not happen to pass for a user password; for version 5 a user password not for an owner password. -/
inductive Unlocks (X : Ciphers) (id : Option Obj) (d : List (Bytes × Obj)) (pw : Bytes) : Bytes → Prop
  | user (E : EncInfo) : Describes id d E → UserEntry X E (fileKey X E pw) → Unlocks X id d pw (fileKey X E pw)
  | owner (E : EncInfo) (user : Bytes) : Describes id d E → E.o = entryO X E pw user → UserEntry X E (fileKey X E user) →
      ¬ UserEntry X E (fileKey X E pw) → Unlocks X id d pw (fileKey X E user)
  | user5 (E : EncInfo5) (k1 k2 : Bytes) : Describes5 id d E → k1.length = 16 → k2.length = 16 → User5 X E pw k1 k2 →
      X.sha256 (pw.take 127 ++ (E.oValidation ++ E.entryU)) ≠ E.o → Unlocks X id d pw (k1 ++ k2)
  | owner5 (E : EncInfo5) (k1 k2 : Bytes) : Describes5 id d E → k1.length = 16 → k2.length = 16 → Owner5 X E pw k1 k2 → Unlocks X id d pw (k1 ++ k2)

/-- The bytes `pw` are no password of the document: they are not the user password which U is for, and O does not hold the user password, which
U is for, encrypted with them. -/
inductive Locked (X : Ciphers) (id : Option Obj) (d : List (Bytes × Obj)) (pw : Bytes) : Prop
  | mk (E : EncInfo) : Describes id d E → E.o.length = 32 → ¬ UserEntry X E (fileKey X E pw) →
      (∀ user, E.o = entryO X E pw user → ¬ UserEntry X E (fileKey X E user)) → Locked X id d pw
  | mk5 (E : EncInfo5) : Describes5 id d E → X.sha256 (pw.take 127 ++ (E.oValidation ++ E.entryU)) ≠ E.o →
      X.sha256 (pw.take 127 ++ E.uValidation) ≠ E.u → Locked X id d pw

/-! ### A writer of encrypted files -/

/-- Blocks of 16 bytes; the last one may be shorter. -/
def blocksOf : Nat → Bytes → List Bytes
  | 0, _ => []
  | n + 1, data => if data = [] then [] else data.take 16 :: blocksOf n (data.drop 16)

/-- Encrypts the data of a stream. -/
def sealData (X : Ciphers) (key : Bytes) (m : Method) (iv : Bytes) (n g : Nat) (data : Bytes) : Bytes :=
  match m with
  | .rc4 => X.rc4 (objectKey X key false n g) data
  | .aes128 => iv ++ cbcEncrypt (X.aesEnc (objectKey X key true n g)) iv (blocksOf (data.length + 16) (data ++ pkcs data))
  | .aes256 => iv ++ cbcEncrypt (X.aesEnc key) iv (blocksOf (data.length + 16) (data ++ pkcs data))
  | .identity => data

/-- Encrypts a stream and sets its Length. -/
def sealObj (X : Ciphers) (key : Bytes) (m : Method) (iv : Bytes) (n g : Nat) : Obj → Obj
  | .stream es data => .stream (dictSet es b!"Length" (.int (sealData X key m iv n g data).length)) (sealData X key m iv n g data)
  | o => o

/-- Encrypts a revision. `iv` gives the initialization vector for each object. -/
def Draft.seal (X : Ciphers) (key : Bytes) (m : Method) (iv : Nat → Nat → Bytes) (d : Draft) : Draft :=
  { d with items := d.items.map fun i => ⟨i.num, i.gen, sealObj X key m (iv i.num i.gen) i.num i.gen i.val⟩ }

/-- What the reader makes of an object which was written encrypted. -/
def openedObj (m : Method) : Obj → Obj
  | .stream es data => .stream (dictSet es b!"Length" (.int (opened m data).length)) (opened m data)
  | o => o

/-- Revisions which can be written encrypted: every stream is one which is encrypted, no object is a string by itself, numbers below 2^32. -/
structure Draft.Sealable (d : List (Bytes × Obj)) (dr : Draft) : Prop where
  streams : ∀ i ∈ dr.items, ∀ es data, i.val = .stream es data → Covered d es
  strings : ∀ i ∈ dr.items, (∀ s, i.val ≠ .str s) ∧ ∀ s, i.val ≠ .hex s
  nums : ∀ i ∈ dr.items, i.num < 4294967296

/-- The document made of texts, to be encrypted: with the encryption dictionary as one more object, and the entries Encrypt and ID in the trailer. -/
def secretDraft (how : List (Bytes × Obj)) (encode : Bytes → Bytes) (pages : List (List Bytes)) (d : List (Bytes × Obj)) (id : Obj) : Draft where
  items := (textDraft how encode pages).items ++ [⟨4 + 2 * pages.length, 0, .dict d⟩]
  trailer := (textDraft how encode pages).trailer ++ [(b!"Encrypt", .ref (4 + 2 * pages.length) 0), (b!"ID", id)]

end PdfReader.Spec
