/-
  Document metadata and dates: pdfreader/document.py `PDFDocument.metadata`, pdfreader/utils.py `from_pdf_datetime`.

  The parser of ISO 8601 dates (dateutil) and the digits beyond ASCII which `\d` matches are parameters.
-/
import Verif.Model.Object
import Verif.Model.CMap

namespace PdfReader

/-- A datetime: the fields, and the offset from UTC in minutes. -/
structure Moment where
  year : Nat
  month : Nat
  day : Nat
  hour : Nat
  minute : Nat
  second : Nat
  offset : Int
  deriving DecidableEq, Repr

/-- What the code takes from outside: which characters `\d` matches, and `dateutil.parser.parse`. -/
structure DateLib where
  digit : Nat → Bool
  parse : Text → Res Moment

/-- The character classes of RE_PDF_DATETIME, utils.py:9. -/
def dateClasses (L : DateLib) : List (Nat → Bool) :=
  [(· == 68), (· == 58)] ++ List.replicate 14 L.digit ++ [fun c => c == 43 || c == 45 || c == 90 || c == 122] ++ [L.digit, L.digit, (· == 39), L.digit, L.digit, (· == 39)]

/-- A match of character classes, with the text after it. -/
def matchClasses : List (Nat → Bool) → Text → Option Text
  | [], s => some s
  | _ :: _, [] => none
  | p :: ps, c :: s => if p c then matchClasses ps s else none

/-- `s[i:j]` -/
def slice (s : Text) (i j : Nat) : Text := (s.drop i).take (j - i)

/-- `RE_PDF_DATETIME.sub(...)`, utils.py:64; `rest` is what the match leaves. -/
def isoForm (s rest : Text) : Text :=
  slice s 2 6 ++ [45] ++ slice s 6 8 ++ [45] ++ slice s 8 10 ++ [84] ++ slice s 10 12 ++ [58] ++ slice s 12 14 ++ [58] ++ slice s 14 16 ++ slice s 16 17 ++ slice s 17 19 ++ [58] ++
    slice s 20 22 ++ rest

/-- `from_pdf_datetime`, utils.py:37-65. The dollar sign matches at the end and before a final newline. -/
def fromPdfDate (L : DateLib) (s : Text) : Res Moment :=
  match matchClasses (dateClasses L) s with
  | none => .error .valueError
  | some rest => if rest = [] ∨ rest = [10] then L.parse ((isoForm s rest).map fun c => if c = 90 then 43 else c) else .error .valueError

/-! ### UTF-8 -/

/-- A continuation byte and its value. -/
def utf8Tail (b : Byte) : Option Nat := if 0x80 ≤ b.toNat ∧ b.toNat < 0xC0 then some (b.toNat - 0x80) else none

/-- The first character of UTF-8 text, as `bytes.decode()` reads it: no overlong forms, no surrogates, nothing above U+10FFFF. -/
def utf8First : Bytes → Option (Nat × Bytes)
  | [] => none
  | b :: s =>
    let x := b.toNat
    if x < 0x80 then some (x, s)
    else if x < 0xC2 then none
    else if x < 0xE0 then
      match s with
      | c :: s => (utf8Tail c).map fun u => ((x - 0xC0) * 64 + u, s)
      | _ => none
    else if x < 0xF0 then
      match s with
      | c :: d :: s =>
        match utf8Tail c, utf8Tail d with
        | some u, some v =>
          let n := (x - 0xE0) * 4096 + u * 64 + v
          if n < 0x800 ∨ (0xD800 ≤ n ∧ n ≤ 0xDFFF) then none else some (n, s)
        | _, _ => none
      | _ => none
    else if x < 0xF5 then
      match s with
      | c :: d :: e :: s =>
        match utf8Tail c, utf8Tail d, utf8Tail e with
        | some u, some v, some w =>
          let n := (x - 0xF0) * 262144 + u * 4096 + v * 64 + w
          if n < 0x10000 ∨ 0x10FFFF < n then none else some (n, s)
        | _, _, _ => none
      | _ => none
    else none

/-- `v.decode()`; `none` is UnicodeDecodeError. The fuel is the number of bytes. -/
def utf8Loop : Nat → Bytes → Option Text
  | _, [] => some []
  | 0, _ :: _ => none
  | n + 1, b :: s =>
    match utf8First (b :: s) with
    | none => none
    | some (x, r) => (utf8Loop n r).map fun t => x :: t

/-- `v.decode()`, document.py:159. -/
def utf8Decode (s : Bytes) : Option Text := utf8Loop s.length s

/-! ### Metadata -/

/-- A value of the Info dictionary: as parsed, a `str`, or a datetime. -/
inductive MetaVal where
  | raw (o : Obj)
  | text (t : Text)
  | date (d : Moment)

/-- The loop body of `metadata`, document.py:157-163. A date which is refused stays text; other exceptions of the date parser get out. -/
def metaValue (L : DateLib) (k : Bytes) : MetaVal → Res MetaVal
  | .raw (.str s) =>
    match utf8Decode s with
    | none => .ok (.raw (.str s))
    | some t =>
      if k = b!"CreationDate" ∨ k = b!"ModDate" then
        match fromPdfDate L t with
        | .ok d => .ok (.date d)
        | .error e => if e = .valueError ∨ e = .typeError then .ok (.text t) else .error e
      else .ok (.text t)
  | v => .ok v

/-- The Info dictionary as the registry holds it; the loop of `metadata` assigns to it in place. -/
abbrev InfoDict := List (Bytes × MetaVal)

/-- `metadata` once the dictionary is located, document.py:157-164: the dictionary after it is both the result and what the registry holds.
Simplification: after an exception the registry holds the entries done so far, which is left out. -/
def metaPass (L : DateLib) : InfoDict → Res InfoDict
  | [] => .ok []
  | (k, v) :: d =>
    match metaValue L k v with
    | .error e => .error e
    | .ok w => (metaPass L d).map fun r => (k, w) :: r

/-- The entry Info of the trailer. -/
inductive InfoEntry where
  | missing
  | ref (num gen : Nat)
  | direct

/-- `metadata`, document.py:146-164. `located` is the object found for the reference: the Info dictionary, or `none` for anything which is no dictionary. -/
def metadata (L : DateLib) (info : InfoEntry) (located : Nat → Nat → Res (Option InfoDict)) : Res (Option InfoDict) :=
  match info with
  | .missing => .ok none
  | .direct => .error .attributeError
  | .ref n g =>
    match located n g with
    | .error e => .error e
    | .ok none => .error .attributeError
    | .ok (some d) => (metaPass L d).map some

end PdfReader
