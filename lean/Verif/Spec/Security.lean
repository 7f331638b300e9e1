/-
  Specification of the standard security handler: ISO 32000-1, 7.6.2 and 7.6.3 (algorithms 1 to 5), and of revision 5 (Adobe Supplement
  to ISO 32000, ExtensionLevel 3). MD5, SHA-256 and AES are parameters; RC4 is defined here.
-/
import Verif.Model.Object

namespace PdfReader.Spec

/-- Ciphers and hashes. -/
structure Ciphers where
  md5 : Bytes → Bytes
  sha256 : Bytes → Bytes
  rc4 : Bytes → Bytes → Bytes
  aesEnc : Bytes → Bytes → Bytes

/-! ### RC4, with the state as a permutation of the numbers below 256 -/

/-- Exchanges two values. -/
def exchange (S : Nat → Nat) (a b : Nat) : Nat → Nat := fun k => if k = a then S b else if k = b then S a else S k

/-- Key scheduling: the permutation and the second index after `n` steps. -/
def scheduled (key : Bytes) : Nat → (Nat → Nat) × Nat
  | 0 => (id, 0)
  | n + 1 =>
    let (S, j) := scheduled key n
    let j := (j + S n + (key.getD (n % key.length) 0).toNat) % 256
    (exchange S n j, j)

/-- Generation: the permutation and the second index after `n` steps; the first index is `n % 256`. -/
def generated (key : Bytes) : Nat → (Nat → Nat) × Nat
  | 0 => ((scheduled key 256).1, 0)
  | n + 1 =>
    let (S, j) := generated key n
    let i := (n + 1) % 256
    let j := (j + S i) % 256
    (exchange S i j, j)

/-- Byte number `n`, from 0, of the key stream. -/
def keyStream (key : Bytes) (n : Nat) : Byte :=
  let (S, j) := generated key (n + 1)
  UInt8.ofNat (S ((S ((n + 1) % 256) + S j) % 256))

/-- `HexOf h b`: the hexadecimal digits `h` spell the bytes `b`. -/
def HexOf : Bytes → Bytes → Prop
  | h, [] => h = []
  | h, c :: b => ∃ x y r, h = x :: y :: r ∧ ∃ v w, hexVal? x = some v ∧ hexVal? y = some w ∧ c.toNat = 16 * v + w ∧ HexOf r b

/-- A string object, literal or hexadecimal, with these bytes. -/
def IsString (o : Option Obj) (b : Bytes) : Prop := o = some (.str b) ∨ ∃ h, o = some (.hex h) ∧ HexOf h b

/-- The contents of an encryption dictionary as far as the algorithms use them. `n` is the length of the key in bytes. -/
structure EncInfo where
  v : Int
  r : Int
  n : Nat
  p : Int
  id : Bytes
  o : Bytes
  u : Bytes
  metadata : Bool

/-- Crypt filters: each entry is a dictionary with one of the methods. -/
def CryptFilters (methods : List Bytes) (cf : List (Bytes × Obj)) : Prop :=
  ∀ e ∈ cf, ∃ fd m, e.2 = .dict fd ∧ dictGet fd b!"CFM" = some (.name m) ∧ m ∈ methods

/-- The crypt filters of the dictionary of version 4 or 5. -/
def HasFilters (methods : List Bytes) (d : List (Bytes × Obj)) : Prop :=
  ∃ cf stmf strf, dictGet d b!"CF" = some (.dict cf) ∧ CryptFilters methods cf ∧ dictGet d b!"StmF" = some (.name stmf) ∧
    dictGet d b!"StrF" = some (.name strf) ∧ (stmf = b!"Identity" ∨ stmf ∈ cf.map (·.1)) ∧ (strf = b!"Identity" ∨ strf ∈ cf.map (·.1))

/-- The trailer's ID and the encryption dictionary say `E`: versions 1 to 3 with revisions 2 and 3, and version 4 with revision 4.
The first element of ID is a hexadecimal string. -/
def Describes (id : Option Obj) (d : List (Bytes × Obj)) (E : EncInfo) : Prop :=
  (∃ h rest, id = some (.arr (.hex h :: rest)) ∧ HexOf h E.id) ∧
  dictGet d b!"V" = some (.int E.v) ∧ dictGet d b!"R" = some (.int E.r) ∧ dictGet d b!"P" = some (.int E.p) ∧
  (-2147483648 ≤ E.p ∧ E.p < 2147483648) ∧ IsString (dictGet d b!"O") E.o ∧ IsString (dictGet d b!"U") E.u ∧
  (((E.v = 1 ∨ E.v = 2 ∨ E.v = 3) ∧ E.metadata = true ∧
      (E.r = 2 ∧ E.n = 5 ∨
       E.r = 3 ∧ 5 ≤ E.n ∧ E.n ≤ 16 ∧ (dictGet d b!"Length" = some (.int (8 * E.n)) ∨ (dictGet d b!"Length" = none ∧ E.n = 5)))) ∨
   (E.v = 4 ∧ E.r = 4 ∧ E.n = 16 ∧ HasFilters [b!"V2", b!"AESV2"] d ∧
     (dictGet d b!"EncryptMetadata" = some (.bool E.metadata) ∨ (dictGet d b!"EncryptMetadata" = none ∧ E.metadata = true))))

/-- The padding string of algorithm 2. -/
def padding : Bytes :=
  [0x28, 0xBF, 0x4E, 0x5E, 0x4E, 0x75, 0x8A, 0x41, 0x64, 0x00, 0x4E, 0x56, 0xFF, 0xFA, 0x01, 0x08,
   0x2E, 0x2E, 0x00, 0xB6, 0xD0, 0x68, 0x3E, 0x80, 0x2F, 0x0C, 0xA9, 0xFE, 0x64, 0x53, 0x69, 0x7A]

/-- A password truncated or padded to 32 bytes. -/
def padded (pw : Bytes) : Bytes := pw.take 32 ++ padding.take (32 - pw.length)

/-- Number with low-order byte first. -/
def le : Nat → Nat → Bytes
  | 0, _ => []
  | k + 1, n => UInt8.ofNat (n % 256) :: le k (n / 256)

/-- The value of P as an unsigned 32-bit number. -/
def unsigned32 (p : Int) : Nat := (p % 4294967296).toNat

/-- Does something several times. -/
def times {α : Type} : Nat → (α → α) → α → α
  | 0, _, x => x
  | n + 1, f, x => f (times n f x)

/-- The key with each byte xored with `i`. -/
def keyXor (key : Bytes) (i : Nat) : Bytes := key.map (· ^^^ UInt8.ofNat i)

/-- Algorithm 2: the file key for a (user) password. -/
def fileKey (X : Ciphers) (E : EncInfo) (pw : Bytes) : Bytes :=
  let h := X.md5 (padded pw ++ (E.o ++ (le 4 (unsigned32 E.p) ++ (E.id ++ if E.r ≥ 4 ∧ E.metadata = false then [255, 255, 255, 255] else []))))
  (if E.r ≥ 3 then times 50 (fun x => X.md5 (x.take E.n)) h else h).take E.n

/-- Encrypts with 19 keys, `key xor 1` to `key xor 19`. -/
def nineteen (X : Ciphers) (key : Bytes) (data : Bytes) : Bytes :=
  ((List.range 19).map (· + 1)).foldl (fun x i => X.rc4 (keyXor key i) x) data

/-- Algorithm 3: the entry O for an owner and a user password. -/
def entryO (X : Ciphers) (E : EncInfo) (owner user : Bytes) : Bytes :=
  let h := X.md5 (padded owner)
  let key := (if E.r ≥ 3 then times 50 X.md5 h else h).take E.n
  let x := X.rc4 key (padded user)
  if E.r ≥ 3 then nineteen X key x else x

/-- Algorithms 4 and 5: the entry U belongs to a file key. For revision 3 and 4 only the first 16 bytes count. -/
def UserEntry (X : Ciphers) (E : EncInfo) (key : Bytes) : Prop :=
  if E.r = 2 then E.u = X.rc4 key padding
  else E.u.take 16 = (nineteen X key (X.rc4 key (X.md5 (padding ++ E.id)))).take 16

/-- CBC encryption of blocks. -/
def cbcEncrypt (enc : Bytes → Bytes) : Bytes → List Bytes → Bytes
  | _, [] => []
  | iv, b :: bs =>
    let c := enc (List.zipWith (· ^^^ ·) b iv)
    c ++ cbcEncrypt enc c bs

/-- Algorithm 1: the key for an object, RC4 or AES. -/
def objectKey (X : Ciphers) (key : Bytes) (aes : Bool) (num gen : Nat) : Bytes :=
  let k := key ++ (le 3 num ++ (le 2 gen ++ if aes then b!"sAlT" else []))
  (X.md5 k).take (min (key.length + 5) 16)

/-- The contents of an encryption dictionary of version 5, revision 5: the hashes, the salts and the encrypted keys. -/
structure EncInfo5 where
  o : Bytes
  oValidation : Bytes
  oKey : Bytes
  oe : Bytes
  u : Bytes
  uValidation : Bytes
  uKey : Bytes
  ue : Bytes

/-- The entries O and U: hash, validation salt, key salt. -/
def EncInfo5.entryO (E : EncInfo5) : Bytes := E.o ++ (E.oValidation ++ E.oKey)
def EncInfo5.entryU (E : EncInfo5) : Bytes := E.u ++ (E.uValidation ++ E.uKey)

/-- The trailer's ID and the encryption dictionary say `E`. -/
def Describes5 (id : Option Obj) (d : List (Bytes × Obj)) (E : EncInfo5) : Prop :=
  (∃ h rest b, id = some (.arr (.hex h :: rest)) ∧ HexOf h b) ∧
  dictGet d b!"V" = some (.int 5) ∧ dictGet d b!"R" = some (.int 5) ∧ (dictGet d b!"P").isSome = true ∧
  IsString (dictGet d b!"O") E.entryO ∧ IsString (dictGet d b!"U") E.entryU ∧
  dictGet d b!"OE" = some (.str E.oe) ∧ dictGet d b!"UE" = some (.str E.ue) ∧ HasFilters [b!"AESV3"] d ∧
  E.o.length = 32 ∧ E.oValidation.length = 8 ∧ E.oKey.length = 8 ∧ E.u.length = 32 ∧ E.uValidation.length = 8 ∧ E.uKey.length = 8

/-- The entries U and UE belong to a user password and a file key (given as two blocks). -/
def User5 (X : Ciphers) (E : EncInfo5) (pw k1 k2 : Bytes) : Prop :=
  E.u = X.sha256 (pw.take 127 ++ E.uValidation) ∧
  E.ue = cbcEncrypt (X.aesEnc (X.sha256 (pw.take 127 ++ E.uKey))) (List.replicate 16 0) [k1, k2]

/-- The entries O and OE belong to an owner password and a file key. -/
def Owner5 (X : Ciphers) (E : EncInfo5) (pw k1 k2 : Bytes) : Prop :=
  E.o = X.sha256 (pw.take 127 ++ (E.oValidation ++ E.entryU)) ∧
  E.oe = cbcEncrypt (X.aesEnc (X.sha256 (pw.take 127 ++ (E.oKey ++ E.entryU)))) (List.replicate 16 0) [k1, k2]

/-- The padding of PKCS #5: 1 to 16 bytes, each giving their number. -/
def pkcs (data : Bytes) : Bytes := List.replicate (16 - data.length % 16) (UInt8.ofNat (16 - data.length % 16))

end PdfReader.Spec
