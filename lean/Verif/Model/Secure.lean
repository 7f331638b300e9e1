/-
  Opening an encrypted document: the part of `PDFDocument.__init__` between the parser and the catalog.
-/
import Verif.Model.Objects
import Verif.Model.Security

namespace PdfReader

/-- `skip_backwards_until`, document.py (parsers) :597-603, from offset `pos`: where the last occurrence of `s` which ends at `pos` or before
begins; `none` is the TypeError at the beginning of the file. -/
def skipBack (file s : Bytes) : Nat → Option Nat
  | 0 => none
  | p + 1 => if s.length ≤ p + 1 ∧ (file.drop (p + 1 - s.length)).take s.length = s then some (p + 1 - s.length) else skipBack file s p

/-- The loop of `locate_backwards_from_trailer`, parsers/document.py:563-571: back over two `endobj`, and forward to the beginning of the object
between them; a TypeError ends it without a result. Simplification: exact as long as reading does not pass the block which was read at
the section (C09); the objects before the section do not. The last argument: `self.read(chunk_len)` gave something else at `pos` minus its length. -/
def backLoop (file hdr : Bytes) : Nat → Nat → Res (Option Nat)
  | 0, _ => .ok none
  | fuel + 1, pos =>
    match skipBack file b!"endobj" pos with
    | none => .ok none
    | some i =>
      match skipBack file b!"endobj" i with
      | none => .ok none
      | some j =>
        match skipSC false (file.drop (j + 6)) with
        | .error .typeError => .ok none
        | .error e => .error e
        | .ok r =>
          if r.length < hdr.length then .ok none
          else if r.take hdr.length = hdr then .ok (some (file.length - r.length))
          else backLoop file hdr fuel (file.length - r.length + hdr.length)

/-- `str(n).encode()` -/
def decimalBytes (n : Nat) : Bytes := (Nat.toDigits 10 n).map fun c => UInt8.ofNat c.toNat

/-- `locate_backwards_from_trailer`, parsers/document.py:551-579. Positions before and after are of no effect: every later read sets its own. -/
def backLocate (clamps : Bool) (fuel : Nat) (env : Env) (num gen : Nat) : M (Option Obj) := fun s =>
  match xrefOffset clamps env.file with
  | .error e => (.error e, s)
  | .ok off =>
    let hdr := decimalBytes num ++ (b!" " ++ (decimalBytes gen ++ b!" obj"))
    if (env.file.drop off).length < hdr.length then (.error .typeError, s)
    else
      match (if (env.file.drop off).take hdr.length = hdr then .ok (some off) else backLoop env.file hdr (env.file.length + 1) (off + hdr.length) : Res (Option Nat)) with
      | .error e => (.error e, s)
      | .ok none => (.ok none, s)
      | .ok (some start) =>
        match parseAt env fuel [] start s with
        | (.error e, s1) => (.error e, s1)
        | (.ok ((n, g, v), _), s1) =>
          match env.dec n g v with
          | .error e => (.error e, s1)
          | .ok w =>
            match register env fuel n g w s1 with
            | (.error e, s2) => (.error e, s2)
            | (.ok (), s2) => (.ok (some w), s2)

/-- `locate_encrypt_by_ref`, document.py:115-125: the registry, the cross-reference sections, `locate_backwards_from_trailer`
(parsers/document.py:551-579), `locate_object`; the first result which counts as true, else the last one. No handler is set yet, so that
nothing is decrypted. `back` is `locate_backwards_from_trailer` (`backLocate`); theorems for objects which are listed do not depend on it. -/
def locateEncrypt (env : Env) (back : Nat → Nat → M (Option Obj)) (fuel num gen : Nat) : M Obj := fun s =>
  if truthy ((regGet s.reg (num, gen)).getD .null) then (.ok ((regGet s.reg (num, gen)).getD .null), s)
  else
    match byXref env fuel num gen env.xrefs s with
    | (.error e, s1) => (.error e, s1)
    | (.ok v, s1) =>
      if truthy (v.getD .null) then (.ok (v.getD .null), s1)
      else
        match back num gen s1 with
        | (.error e, s2) => (.error e, s2)
        | (.ok v, s2) => if truthy (v.getD .null) then (.ok (v.getD .null), s2) else locate env fuel num gen s2

/-- The encryption dictionary of the document as an object, with the state after it was looked up: `PDFDocument.encrypt`, document.py:53-62. -/
def encryptObj (env : Env) (back : Nat → Nat → M (Option Obj)) (fuel : Nat) (enc : Obj) : M Obj := fun s =>
  match enc with
  | .ref n g => locateEncrypt env back fuel n g s
  | o => (.ok o, s)

/-- document.py:36-41: the handler is created with the password and set, and from now on the parser decrypts what it parses; what is
registered already stays as it is. -/
def secureWith (C : Crypto) (back : Env → Nat → Nat → M (Option Obj)) (fuel : Nat) (password : Text) (p : Opened) (enc : Obj) : Res Opened :=
  match encryptObj p.env (back p.env) fuel enc p.st with
  | (.error e, _) => .error e
  | (.ok o, s) =>
    match docHandler C (fun _ _ => .ok o) p.trailer password with
    | .error e => .error e
    | .ok none => .ok { p with st := s }
    | .ok (some h) => .ok { p with env := { p.env with dec := decryptIfNecessary C (some h) }, st := s }

/-- `PDFDocument(fobj, password)`, document.py:26-43. -/
def openWith (C : Crypto) (back : Env → Nat → Nat → M (Option Obj)) (filtered : List (Bytes × Obj) → Bytes → Res Bytes) (clamps : Bool) (fuel : Nat)
    (password : Text) (file : Bytes) : Res (Opened × Val) :=
  openDocument filtered (secureWith C back fuel password) clamps fuel file

end PdfReader
