/-
  Encryption: pdfreader/securityhandler.py. The hash functions and the block cipher of the libraries are parameters; RC4 and the CBC
  mode are modelled.
-/
import Verif.Model.Codecs

namespace PdfReader

/-- Functions of hashlib and pycryptodome. `aesDec key block` decrypts one block. -/
structure Crypto where
  md5 : Bytes → Bytes
  sha256 : Bytes → Bytes
  aesDec : Bytes → Bytes → Bytes

/-! ### RC4 (pycryptodome: Crypto.Cipher.ARC4) -/

/-- Exchanges two entries. -/
def swapAt (s : List Byte) (i j : Nat) : List Byte := (s.set i (s.getD j 0)).set j (s.getD i 0)

/-- One step of the key schedule. -/
def rc4KeyStep (key : Bytes) (st : List Byte × Nat) (i : Nat) : List Byte × Nat :=
  let j := (st.2 + (st.1.getD i 0).toNat + (key.getD (i % key.length) 0).toNat) % 256
  (swapAt st.1 i j, j)

/-- The permutation of a key. -/
def rc4Init (key : Bytes) : List Byte :=
  ((List.range 256).foldl (rc4KeyStep key) ((List.range 256).map UInt8.ofNat, 0)).1

/-- The key stream, xored with data. -/
def rc4Loop : Bytes → List Byte → Nat → Nat → Bytes
  | [], _, _, _ => []
  | x :: data, s, i, j =>
    let i := (i + 1) % 256
    let j := (j + (s.getD i 0).toNat) % 256
    let s := swapAt s i j
    (x ^^^ s.getD (((s.getD i 0).toNat + (s.getD j 0).toNat) % 256) 0) :: rc4Loop data s i j

/-- RC4 of data, with a new state. -/
def rc4 (key data : Bytes) : Bytes := rc4Loop data (rc4Init key) 0 0

/-- `ARC4.new(key).encrypt(data)`, which is also `decrypt`: keys of 1 to 256 bytes are accepted. -/
def arc4 (key data : Bytes) : Res Bytes := if 1 ≤ key.length ∧ key.length ≤ 256 then .ok (rc4 key data) else .error .valueError

/-! ### CBC (pycryptodome: Crypto.Cipher.AES) -/

def xorBytes (a b : Bytes) : Bytes := List.zipWith (· ^^^ ·) a b

/-- CBC decryption of blocks of 16 bytes. -/
def cbcDecrypt (dec : Bytes → Bytes) (iv data : Bytes) : Bytes :=
  if _h : data = [] then []
  else xorBytes (dec (data.take 16)) iv ++ cbcDecrypt dec (data.take 16) (data.drop 16)
termination_by data.length
decreasing_by
  rw [List.length_drop]
  have : data.length ≠ 0 := fun e => _h (List.eq_nil_of_length_eq_zero e)
  omega

/-- `AES.new(key, mode=AES.MODE_CBC, IV=iv).decrypt(data)` -/
def aesCbc (C : Crypto) (key iv data : Bytes) : Res Bytes :=
  if (key.length = 16 ∨ key.length = 24 ∨ key.length = 32) ∧ iv.length = 16 ∧ data.length % 16 = 0 then .ok (cbcDecrypt (C.aesDec key) iv data)
  else .error .valueError

/-! ### Parameters -/

/-- `bytes.fromhex` -/
def fromHex (d : Bytes) : Res Bytes := fallbackHex.ahxBytes d

/-- UTF-8 of a character, securityhandler.py:42; surrogates cannot be encoded (UnicodeEncodeError is a ValueError). -/
def utf8Char (x : Nat) : Res Bytes :=
  if x < 0x80 then .ok [UInt8.ofNat x]
  else if x < 0x800 then .ok [UInt8.ofNat (0xC0 + x / 64), UInt8.ofNat (0x80 + x % 64)]
  else if 0xD800 ≤ x ∧ x ≤ 0xDFFF then .error .valueError
  else if x < 0x10000 then .ok [UInt8.ofNat (0xE0 + x / 4096), UInt8.ofNat (0x80 + x / 64 % 64), UInt8.ofNat (0x80 + x % 64)]
  else .ok [UInt8.ofNat (0xF0 + x / 262144), UInt8.ofNat (0x80 + x / 4096 % 64), UInt8.ofNat (0x80 + x / 64 % 64), UInt8.ofNat (0x80 + x % 64)]

/-- `password.encode("utf-8")` -/
def utf8 : Text → Res Bytes
  | [] => .ok []
  | x :: t =>
    match utf8Char x, utf8 t with
    | .ok a, .ok b => .ok (a ++ b)
    | _, _ => .error .valueError

/-- `PASSWORD_PADDING`, securityhandler.py:37 -/
def passwordPadding : Bytes :=
  [0x28, 0xBF, 0x4E, 0x5E, 0x4E, 0x75, 0x8A, 0x41, 0x64, 0x00, 0x4E, 0x56, 0xFF, 0xFA, 0x01, 0x08,
   0x2E, 0x2E, 0x00, 0xB6, 0xD0, 0x68, 0x3E, 0x80, 0x2F, 0x0C, 0xA9, 0xFE, 0x64, 0x53, 0x69, 0x7A]

/-- `struct.pack('<L', n)`, or `'<l'` of a negative number after adding 2^32. -/
def packLE (n : Nat) : Bytes := [UInt8.ofNat (n % 256), UInt8.ofNat (n / 256 % 256), UInt8.ofNat (n / 65536 % 256), UInt8.ofNat (n / 16777216 % 256)]

/-- `struct.pack('<l', p)`, securityhandler.py:101. Simplification: struct.error is given as ValueError, also for values which are no
integers. -/
def packP (o : Obj) : Res Bytes :=
  match o with
  | .int p => if -2147483648 ≤ p ∧ p < 2147483648 then .ok (packLE (p % 4294967296).toNat) else .error .valueError
  | _ => .error .valueError

/-- `struct.pack('<L', num)` -/
def packU (n : Nat) : Res Bytes := if n < 4294967296 then .ok (packLE n) else .error .valueError

/-- Decryption methods, securityhandler.py:216-222, 254-256, 310-312. -/
inductive Cfm where
  | rc4
  | aes128
  | aes256
  | identity
  deriving DecidableEq, Repr

/-- The handler classes. -/
inductive HandlerKind where
  | standard
  | v4
  | v5
  deriving DecidableEq, Repr

/-- Parameters of a handler, `init_params`. `cfm`, `stmf` and `strf` are those of V4 and V5. -/
structure EncParams where
  kind : HandlerKind
  docid : Bytes
  r : Obj
  p : Obj
  o : Bytes
  u : Bytes
  length : Obj
  encryptMetadata : Bool
  cfm : List (Bytes × Cfm)
  stmf : Bytes
  strf : Bytes
  oe : Bytes
  ue : Bytes

/-- `self.docid = bytes(bytearray.fromhex(docid[0]))`, securityhandler.py:40. -/
def docidOf (id : Option Obj) : Res Bytes :=
  match id with
  | some (.arr (.hex d :: _)) => fromHex d
  | some (.arr (.name d :: _)) => fromHex d
  | some (.arr []) => .error .indexError
  | _ => .error .typeError

/-- `O` and `U`, securityhandler.py:58-63. Simplification: values which are no strings fail here and not when they are used. -/
def entryBytes (d : List (Bytes × Obj)) (k : Bytes) : Res Bytes :=
  match dictGet d k with
  | none => .error .keyError
  | some (.str s) => .ok s
  | some (.hex h) => fromHex h
  | some (.name h) => fromHex h
  | _ => .error .typeError

/-- `get_cfm`, securityhandler.py:216-222, 286-288. -/
def getCfm (k : HandlerKind) (n : Obj) : Option Cfm :=
  match k, n with
  | .v5, .name n => if n = b!"AESV3" then some .aes256 else none
  | _, .name n => if n = b!"V2" then some .rc4 else if n = b!"AESV2" then some .aes128 else none
  | _, _ => none

/-- Loop over `CF`, securityhandler.py:205-209; entries other than dictionaries raise TypeError. -/
def cfLoop (k : HandlerKind) : List (Bytes × Obj) → Res (List (Bytes × Cfm))
  | [] => .ok []
  | (n, .dict v) :: es =>
    match dictGet v b!"CFM" with
    | none => .error .keyError
    | some m =>
      match getCfm k m with
      | none => .error .valueError
      | some f =>
        match cfLoop k es with
        | .error e => .error e
        | .ok fs => .ok ((n, f) :: fs)
  | _ :: _ => .error .typeError

/-- `bool(encrypt.get('EncryptMetadata', True))` -/
def encryptsMetadata (o : Option Obj) : Bool :=
  match o with
  | some (.bool b) => b
  | some .null => false
  | some (.int n) => n ≠ 0
  | _ => true

/-- `StandardSecurityHandler.init_params`, securityhandler.py:54-66, with `__init__`. -/
def baseParams (kind : HandlerKind) (id : Option Obj) (d : List (Bytes × Obj)) : Res EncParams :=
  match docidOf id with
  | .error e => .error e
  | .ok docid =>
    match dictGet d b!"R", dictGet d b!"P" with
    | some r, some p =>
      match entryBytes d b!"O" with
      | .error e => .error e
      | .ok o =>
        match entryBytes d b!"U" with
        | .error e => .error e
        | .ok u => .ok ⟨kind, docid, r, p, o, u, (dictGet d b!"Length").getD (.int 40), true, [], [], [], [], []⟩
    | _, _ => .error .keyError

/-- `self.cfm[filter]`: the later entry wins, and `Identity` is set last (securityhandler.py:210). -/
def cfmGet (cfm : List (Bytes × Cfm)) (n : Bytes) : Option Cfm := if n = b!"Identity" then some .identity else assoc n cfm

/-- `StandardSecurityHandlerV4.init_params`, securityhandler.py:197-214; StmF and StrF are names. -/
def v4Params (kind : HandlerKind) (id : Option Obj) (d : List (Bytes × Obj)) : Res EncParams :=
  match baseParams kind id d with
  | .error e => .error e
  | .ok q =>
    match dictGet d b!"StmF", dictGet d b!"StrF" with
    | some (.name stmf), some (.name strf) =>
      match dictGet d b!"CF" with
      | some (.dict cf) =>
        match cfLoop kind cf with
        | .error e => .error e
        | .ok cfm =>
          if (cfmGet cfm strf).isNone ∨ (cfmGet cfm stmf).isNone then .error .valueError
          else .ok { q with length := .int 128, encryptMetadata := encryptsMetadata (dictGet d b!"EncryptMetadata"), cfm := cfm, stmf := stmf, strf := strf }
      | _ => .error .attributeError
    | none, _ => .error .keyError
    | _, none => .error .keyError
    | _, _ => .error .typeError

/-- `StandardSecurityHandlerV5.init_params`, securityhandler.py:274-284. Simplification: `OE` and `UE` must be literal strings. -/
def v5Params (id : Option Obj) (d : List (Bytes × Obj)) : Res EncParams :=
  match v4Params .v5 id d with
  | .error e => .error e
  | .ok q =>
    match dictGet d b!"OE", dictGet d b!"UE" with
    | some (.str oe), some (.str ue) => .ok { q with length := .int 256, oe := oe, ue := ue }
    | some _, some _ => .error .typeError
    | _, _ => .error .keyError

/-! ### Keys, revisions 2 to 4 -/

/-- `self.r >= n` for a supported revision. -/
def revision (q : EncParams) : Int := match q.r with | .int r => r | _ => 0

/-- `self.length // 8`, then `[:n]`. -/
def keyLength (q : EncParams) : Res Int :=
  match q.length with
  | .int n => .ok (n / 8)
  | _ => .error .typeError

/-- `b[:n]` -/
def sliceTo (b : Bytes) (n : Int) : Bytes := if 0 ≤ n then b.take n.toNat else b.take (b.length - (-n).toNat)

/-- `(password + PASSWORD_PADDING)[:32]` -/
def padPassword (pw : Bytes) : Bytes := (pw ++ passwordPadding).take 32

/-- Repeats a step. -/
def iter {α : Type} (f : α → α) : Nat → α → α
  | 0, x => x
  | n + 1, x => iter f n (f x)

/-- `compute_encryption_key`, securityhandler.py:96-114 -/
def computeKey (C : Crypto) (q : EncParams) (pw : Bytes) : Res Bytes :=
  match packP q.p with
  | .error e => .error e
  | .ok pp =>
    let h := C.md5 (padPassword pw ++ q.o ++ pp ++ q.docid ++ (if revision q ≥ 4 ∧ q.encryptMetadata = false then [255, 255, 255, 255] else []))
    if revision q ≥ 3 then
      match keyLength q with
      | .error e => .error e
      | .ok n => .ok (sliceTo (iter (fun x => C.md5 (sliceTo x n)) 50 h) n)
    else .ok (sliceTo h 5)

/-- `for i in ...: k = bytes((c ^ i) for c in key); result = ARC4.new(k).encrypt(result)` -/
def arc4Chain (key : Bytes) : List Nat → Bytes → Res Bytes
  | [], x => .ok x
  | i :: is, x =>
    match arc4 (key.map (· ^^^ UInt8.ofNat i)) x with
    | .error e => .error e
    | .ok y => arc4Chain key is y

/-- `compute_u`, securityhandler.py:78-94 -/
def computeU (C : Crypto) (q : EncParams) (key : Bytes) : Res Bytes :=
  if revision q = 2 then arc4 key passwordPadding
  else
    match arc4 key (C.md5 (passwordPadding ++ q.docid)) with
    | .error e => .error e
    | .ok x =>
      match arc4Chain key [1, 2, 3, 4, 5, 6, 7, 8, 9, 10, 11, 12, 13, 14, 15, 16, 17, 18, 19] x with
      | .error e => .error e
      | .ok y => .ok (y ++ List.replicate 16 0)

/-- `verify_encryption_key`, securityhandler.py:127-132 -/
def verifyKey (C : Crypto) (q : EncParams) (key : Bytes) : Res Bool :=
  match computeU C q key with
  | .error e => .error e
  | .ok u => .ok (if revision q = 2 then u == q.u else u.take 16 == q.u.take 16)

/-- `authenticate_user_password`, securityhandler.py:122-125 -/
def authUser (C : Crypto) (q : EncParams) (pw : Bytes) : Res (Option Bytes) :=
  match computeKey C q pw with
  | .error e => .error e
  | .ok key =>
    match verifyKey C q key with
    | .error e => .error e
    | .ok b => .ok (if b then some key else none)

/-- `authenticate_owner_password`, securityhandler.py:134-153 -/
def authOwner (C : Crypto) (q : EncParams) (pw : Bytes) : Res (Option Bytes) :=
  let h := C.md5 (padPassword pw)
  if revision q ≥ 3 then
    match keyLength q with
    | .error e => .error e
    | .ok n =>
      match arc4Chain (sliceTo (iter C.md5 50 h) n) [19, 18, 17, 16, 15, 14, 13, 12, 11, 10, 9, 8, 7, 6, 5, 4, 3, 2, 1, 0] q.o with
      | .error e => .error e
      | .ok u => authUser C q u
  else
    match arc4 (sliceTo h 5) q.o with
    | .error e => .error e
    | .ok u => authUser C q u

/-- `authenticate` of V5, securityhandler.py:290-308 -/
def authV5 (C : Crypto) (q : EncParams) (pw : Bytes) : Res (Option Bytes) :=
  let pw := pw.take 127
  if C.sha256 (pw ++ (q.o.drop 32).take 8 ++ q.u) = q.o.take 32 then
    (aesCbc C (C.sha256 (pw ++ q.o.drop 40 ++ q.u)) (List.replicate 16 0) q.oe).map some
  else if C.sha256 (pw ++ (q.u.drop 32).take 8) = q.u.take 32 then
    (aesCbc C (C.sha256 (pw ++ q.u.drop 40)) (List.replicate 16 0) q.ue).map some
  else .ok none

/-- `authenticate`, securityhandler.py:116-120, 290-308 -/
def authenticate (C : Crypto) (q : EncParams) (pw : Bytes) : Res (Option Bytes) :=
  if q.kind = .v5 then authV5 C q pw
  else
    match authUser C q pw with
    | .error e => .error e
    | .ok (some key) => .ok (some key)
    | .ok none => authOwner C q pw

/-- A handler: parameters and the key. -/
structure Handler where
  q : EncParams
  key : Bytes

/-- `supported_revisions` of the classes, securityhandler.py:38, 195, 272. -/
def supported (k : HandlerKind) (r : Obj) : Bool :=
  match k, r with
  | .standard, .int r => r == 2 || r == 3
  | .v4, .int r => r == 4
  | .v5, .int r => r == 5
  | _, _ => false

/-- `init`, securityhandler.py:46-51, 68-72 -/
def initHandler (C : Crypto) (pw : Bytes) (q : EncParams) : Res Handler :=
  if supported q.kind q.r then
    match authenticate C q pw with
    | .error e => .error e
    | .ok (some key) => .ok ⟨q, key⟩
    | .ok none => .error .valueError
  else .error .valueError

/-- The class by version, and `init_params`: securityhandler.py:14-18, 315-321. Simplification: `V` is compared as an integer only. -/
def paramsOf (id : Option Obj) (d : List (Bytes × Obj)) : Res EncParams :=
  match (dictGet d b!"V").getD (.int 0) with
  | .int v =>
    if v = 1 ∨ v = 2 ∨ v = 3 then baseParams .standard id d
    else if v = 4 then v4Params .v4 id d
    else if v = 5 then v5Params id d
    else .error .valueError
  | _ => .error .valueError

/-- `security_handler_factory`, securityhandler.py:14-18. The dictionary is given with references resolved. Simplification: the password
is encoded before the parameters are read. -/
def mkHandler (C : Crypto) (id : Option Obj) (d : List (Bytes × Obj)) (password : Text) : Res Handler :=
  match utf8 password with
  | .error e => .error e
  | .ok pw =>
    match paramsOf id d with
    | .error e => .error e
    | .ok q => initHandler C pw q

/-! ### Decryption -/

/-- `decrypt_rc4`, securityhandler.py:181-186 -/
def decryptRc4 (C : Crypto) (key : Bytes) (num gen : Nat) (data : Bytes) : Res Bytes :=
  match packU num, packU gen with
  | .ok n, .ok g =>
    let k := key ++ n.take 3 ++ g.take 2
    arc4 ((C.md5 k).take (min k.length 16)) data
  | _, _ => .error .valueError

/-- `decrypt_aes128`, securityhandler.py:257-261 -/
def decryptAes128 (C : Crypto) (key : Bytes) (num gen : Nat) (data : Bytes) : Res Bytes :=
  match packU num, packU gen with
  | .ok n, .ok g =>
    let k := key ++ n.take 3 ++ g.take 2 ++ b!"sAlT"
    aesCbc C ((C.md5 k).take (min k.length 16)) (data.take 16) (data.drop 16)
  | _, _ => .error .valueError

/-- `decrypt_aes256`, securityhandler.py:310-312 -/
def decryptAes256 (C : Crypto) (key : Bytes) (data : Bytes) : Res Bytes := aesCbc C key (data.take 16) (data.drop 16)

/-- The method for streams or strings. -/
def decryptData (C : Crypto) (h : Handler) (filter : Bytes) (num gen : Nat) (data : Bytes) : Res Bytes :=
  if h.q.kind = .standard then decryptRc4 C h.key num gen data
  else
    match cfmGet h.q.cfm filter with
    | none => .error .keyError
    | some .identity => .ok data
    | some .rc4 => decryptRc4 C h.key num gen data
    | some .aes128 => decryptAes128 C h.key num gen data
    | some .aes256 => decryptAes256 C h.key data

/-- What `decrypt` returns: the indirect object with a new value, or a bare String (securityhandler.py:173-177, 245-250). -/
inductive Decrypted where
  | object (v : Obj)
  | bare (s : Bytes)

/-- `decrypt`, securityhandler.py:155-179, 224-252. `HexString.to_bytes` is a method, and is passed without being called: TypeError. -/
def decryptObj (C : Crypto) (h : Handler) (num gen : Nat) (v : Obj) : Res Decrypted :=
  match v with
  | .stream d data =>
    if h.q.kind = .standard ∨ dictGet d b!"Type" ≠ some (.name b!"Metadata") ∨ h.q.encryptMetadata = true then
      match decryptData C h h.q.stmf num gen data with
      | .error e => .error e
      | .ok data => .ok (.object (.stream (dictSet d b!"Length" (.int data.length)) data))
    else .ok (.object v)
  | .str s =>
    match decryptData C h h.q.strf num gen s with
    | .error e => .error e
    | .ok s => .ok (.bare s)
  | _ => .error .typeError

/-- `decrypt_indirect_object_if_necessary` and the registration of its result, document.py:444-449, 623-628: a bare String has no
attribute `num`, so that the registration raises AttributeError. -/
def decryptIfNecessary (C : Crypto) (h : Option Handler) (num gen : Nat) (v : Obj) : Res Obj :=
  match h with
  | none => .ok v
  | some h =>
    match v with
    | .stream _ _ | .str _ | .hex _ =>
      match decryptObj C h num gen v with
      | .error e => .error e
      | .ok (.object w) => .ok w
      | .ok (.bare _) => .error .attributeError
    | _ => .ok v

/-- The encryption part of `PDFDocument.__init__`, document.py:36-41, 53-62. `resolve` is `locate_encrypt_by_ref` (document.py:115-125);
its result is a DictBasedObject, whose attributes are its entries, while a direct dictionary is a plain `dict` and has no attribute
`Filter`. -/
def docHandler (C : Crypto) (resolve : Nat → Nat → Res Obj) (trailer : List (Bytes × Obj)) (password : Text) : Res (Option Handler) :=
  let id := match dictGet trailer b!"ID" with | some (.arr (x :: xs)) => some (.arr (x :: xs)) | _ => dictGet trailer b!"Id"
  match dictGet trailer b!"Encrypt" with
  | none | some .null | some (.dict []) => .ok none
  | some (.ref n g) =>
    match resolve n g with
    | .error e => .error e
    | .ok (.dict []) => .ok none
    | .ok (.dict d) =>
      if dictGet d b!"Filter" ≠ some (.name b!"Standard") then .error .valueError
      else (mkHandler C id d password).map some
    | .ok .null => .ok none
    | .ok _ => .error .attributeError
  | some _ => .error .attributeError

end PdfReader
