/-
  The object parser: pdfreader/parsers/base.py (BasicTypesParser), and its variants
  parsers/content.py (ContentParser) and parsers/inlineimage.py (InlineImageParser).

  A parser state is the remaining input (the buffer refinement, Verif/Props/Buffer.lean, justifies
  this: the parser reads forward from where it was opened, and steps back only over bytes it has
  just read). `next()` at end of input returns `None` and stays there. Python exceptions are values.
  Interpreter limits (recursion depth; CPython's 4300-digit limit of `int()` in recent versions;
  exponents of Decimal beyond ±999999) are not modelled.
-/
import Verif.Model.Object

namespace PdfReader

/-- Result of a parsing method: value and remaining input. -/
abbrev PRes (α : Type) := Res (α × Bytes)

/-- `self.is_regular`, base.py:102. -/
def isRegular (c : Byte) : Bool := !(isWs c || isDelim c)

/-- `self.is_hex_digit`, base.py:110. -/
def isHex (c : Byte) : Bool := (hexVal? c).isSome

/-- `c in b"01234567"`. -/
def isOct (c : Byte) : Bool := decide (48 ≤ c.toNat ∧ c.toNat ≤ 55)

/-- `c in (CR, LF)`: `self.is_eol` for a single byte, base.py:90. -/
def isEol (c : Byte) : Bool := c == 13 || c == 10

/-- `maybe_spaces`, base.py:58-60. -/
def skipWs : Bytes → Bytes
  | [] => []
  | c :: r => if isWs c then skipWs r else c :: r

/-- `maybe_spaces_or_comments` (base.py:62-72) with `comment` (base.py:171-188). The flag says that we
are inside a comment. A comment which runs into the end of input does `bytes += None`: TypeError.
The `eol()` which ends a comment takes CR, LF or CR LF; as both are white space and white space is
skipped next, only the first byte matters. -/
def skipSC : Bool → Bytes → Res Bytes
  | false, [] => .ok []
  | true, [] => .error .typeError
  | false, c :: r =>
    if isWs c then skipSC false r
    else if c == 37 then skipSC true r
    else .ok (c :: r)
  | true, c :: r => if isEol c then skipSC false r else skipSC true r

/-- `read(n)`, buffer.py:165-166: joining a `None` is a TypeError. -/
def readN (n : Nat) (inp : Bytes) : PRes Bytes :=
  if inp.length < n then .error .typeError else .ok (inp.take n, inp.drop n)

/-- `null` / `true` / `false` / other fixed keywords: read `len(kw)` bytes and compare
(base.py:113-169). -/
def keyword (kw : Bytes) (val : Obj) (inp : Bytes) : PRes Obj :=
  match readN kw.length inp with
  | .error e => .error e
  | .ok (t, r) => if t = kw then .ok (val, r) else .error .parser

/-- `while self.is_digit: …` : digits read and the rest. -/
def spanDigits : Bytes → Bytes × Bytes
  | [] => ([], [])
  | c :: r => if isDigit c then let p := spanDigits r; (c :: p.1, p.2) else ([], c :: r)

/-- `int(digits)` -/
def natOfDigits (ds : Bytes) : Nat := ds.foldl (fun a c => 10 * a + (c.toNat - 48)) 0

/-- Number of decimal digits of `c` (0 for 0); `fuel` ≥ that number. -/
def decLen : Nat → Nat → Nat
  | 0, _ => 0
  | f + 1, c => if c = 0 then 0 else 1 + decLen f (c / 10)

/-- `-val` for `val = Decimal` with coefficient `c` and exponent `e`, in the default context
(28 significant digits, ROUND_HALF_EVEN; `-Decimal('0.0')` is `Decimal('0.0')`). `n` bounds the
number of digits. -/
def negReal (n : Nat) (c : Nat) (e : Int) : Obj :=
  if c < 10 ^ 28 then .real (-(c : Int)) e
  else
    let drop := decLen n c - 28
    let q := c / 10 ^ drop
    let r := c % 10 ^ drop
    let q' := if 2 * r > 10 ^ drop ∨ (2 * r = 10 ^ drop ∧ q % 2 = 1) then q + 1 else q
    if q' = 10 ^ 28 then .real (-(10 ^ 27 : Int)) (e + drop + 1)
    else .real (-(q' : Int)) (e + drop)

/-- The sign of a number, base.py:231-237. -/
def readSign : Bytes → Bool × Bytes
  | 43 :: r => (false, r)
  | 45 :: r => (true, r)
  | r => (false, r)

/-- `numeric`, base.py:191-268. -/
def numeric (inp : Bytes) : PRes Obj :=
  let (neg, r) := readSign inp
  let (ip, r1) := spanDigits r
  match r1 with
  | 46 :: r2 =>
    let (fp, r3) := spanDigits r2
    if ip = [] ∧ fp = [] then .error .parser
    else
      let ip' := if ip = [] then [48] else ip
      let fp' := if fp = [] then [48] else fp
      let c := natOfDigits (ip' ++ fp')
      let e : Int := -(fp'.length : Int)
      if neg then .ok (negReal (ip'.length + fp'.length) c e, r3)
      else .ok (.real c e, r3)
  | _ =>
    if ip = [] then .error .parser
    else .ok (.int (if neg then -(natOfDigits ip : Int) else natOfDigits ip), r1)

/-- `non_negative_int`, base.py:270-274. -/
def nonNegInt (inp : Bytes) : PRes Nat :=
  match numeric inp with
  | .error e => .error e
  | .ok (.int n, r) => if n < 0 then .error .parser else .ok (n.toNat, r)
  | .ok _ => .error .parser

/-- Loop of `name`, base.py:311-327. `#` not followed by two hexadecimal digits is kept; in the code a
single digit after it is copied at once, here by the next iteration (a hex digit is a regular
character, so this is the same). -/
def nameLoop : Bytes → Bytes × Bytes
  | [] => ([], [])
  | 35 :: a :: b :: r =>
    match hexVal? a, hexVal? b with
    | some x, some y => let p := nameLoop r; (UInt8.ofNat (16 * x + y) :: p.1, p.2)
    | _, _ => let p := nameLoop (a :: b :: r); (35 :: p.1, p.2)
  | c :: r => if isRegular c then let p := nameLoop r; (c :: p.1, p.2) else ([], c :: r)

/-- `name`, base.py:276-331. `emptyOk` = `empty_names_allowed` (always True in pdfreader). -/
def nameP (emptyOk : Bool) (inp : Bytes) : PRes Bytes :=
  match inp with
  | 47 :: r =>
    let p := nameLoop r
    if p.1 = [] ∧ emptyOk = false then .error .parser else .ok p
  | _ => .error .parser

/-- ASCII upper case of a hexadecimal digit (`.upper()`, base.py:527). -/
def upperHex (c : Byte) : Byte := if 97 ≤ c.toNat ∧ c.toNat ≤ 102 then c - 32 else c

/-- Loop of `hexstring` after `<` (base.py:512-521) with the skipping of blanks and comments inlined;
the flag says that we are inside a comment. -/
def hexLoop : Bool → Bytes → PRes Bytes
  | false, [] => .error .parser
  | true, [] => .error .typeError
  | true, c :: r => if isEol c then hexLoop false r else hexLoop true r
  | false, c :: r =>
    if isWs c then hexLoop false r
    else if c == 37 then hexLoop true r
    else if isHex c then
      match hexLoop false r with
      | .error e => .error e
      | .ok (t, r') => .ok (upperHex c :: t, r')
    else if c == 62 then .ok ([], r)
    else .error .parser

/-- `hexstring` after its `<`, base.py:486-527: an odd number of digits gets a `0`. -/
def hexstring (r : Bytes) : PRes Obj :=
  match hexLoop false r with
  | .error e => .error e
  | .ok (t, r') => .ok (.hex (if t.length % 2 = 1 then t ++ [48] else t), r')

/-- `STRING_ESCAPED.get(ch) or (b"\\" + ch)`, base.py:628, constants.py:42-49. -/
def unescape (c : Byte) : Bytes :=
  if c == 110 then [10]        -- n
  else if c == 114 then [13]   -- r
  else if c == 116 then [9]    -- t
  else if c == 98 then [8]     -- b
  else if c == 102 then [12]   -- f
  else if c == 40 || c == 41 || c == 92 then [c]
  else [92, c]

/-- `int(code, 8)` and the 255 limit, base.py:613-620. -/
def octal (code : Bytes) : Bytes :=
  let n := code.foldl (fun a c => 8 * a + (c.toNat - 48)) 0
  if n ≤ 255 then [UInt8.ofNat n] else 92 :: code

/-- Prepend bytes to the value of a string result. -/
def pre (bs : Bytes) : PRes Bytes → PRes Bytes
  | .error e => .error e
  | .ok (v, r) => .ok (bs ++ v, r)

/-- Loop of `string` after the opening parenthesis, base.py:597-634. The recursion
`b"(" + self.string() + b")"` is unrolled into a nesting depth. Reaching the end of input is a
TypeError everywhere (`None in b"…"`, `bytes += None`). -/
def strLoop : Nat → Bytes → PRes Bytes
  | _, [] => .error .typeError
  | d, 92 :: r =>
    match r with
    | [] => .error .typeError
    | c :: r1 =>
      if isOct c then
        match r1 with
        | [] => .error .typeError
        | c2 :: r2 =>
          if isOct c2 then
            match r2 with
            | [] => .error .typeError
            | c3 :: r3 =>
              if isOct c3 then pre (octal [c, c2, c3]) (strLoop d r3)
              else pre (octal [c, c2]) (strLoop d (c3 :: r3))
          else pre (octal [c]) (strLoop d (c2 :: r2))
      else if c == 13 then
        match r1 with
        | [] => .error .typeError
        | c2 :: r2 => if c2 == 10 then strLoop d r2 else strLoop d (c2 :: r2)
      else if c == 10 then strLoop d r1
      else pre (unescape c) (strLoop d r1)
  | d, c :: r =>
    if c == 40 then pre [40] (strLoop (d + 1) r)
    else if c == 41 then
      match d with
      | 0 => .ok ([], r)
      | d + 1 => pre [41] (strLoop d r)
    else pre [c] (strLoop d r)

/-- `indirect_reference`, base.py:671-685. -/
def indirectRef (inp : Bytes) : PRes Obj :=
  match nonNegInt inp with
  | .error e => .error e
  | .ok (num, r) =>
    match skipSC false r with
    | .error e => .error e
    | .ok r1 =>
      match nonNegInt r1 with
      | .error e => .error e
      | .ok (gen, r2) =>
        match skipSC false r2 with
        | .error e => .error e
        | .ok [] => .error .parser
        | .ok (c :: r3) => if c = 82 then .ok (.ref num gen, r3) else .error .parser

/-- `numeric_or_indirect_reference`, base.py:687-694: only ParserException backtracks. -/
def numericOrRef (inp : Bytes) : PRes Obj :=
  match indirectRef inp with
  | .error .parser => numeric inp
  | r => r

/-- `while self.is_regular: token += self.next()`. -/
def spanRegular : Bytes → Bytes × Bytes
  | [] => ([], [])
  | c :: r => if isRegular c then let p := spanRegular r; (c :: p.1, p.2) else ([], c :: r)

/-- `token`, base.py:696-718. -/
def tokenP (inp : Bytes) : PRes Bytes :=
  match inp with
  | [] => .error .parser
  | c :: _ => if !isRegular c || isDigit c then .error .parser else .ok (spanRegular inp)

/-- Is `pat` a prefix of `s`? -/
def startsWith (pat s : Bytes) : Bool := pat.isPrefixOf s

/-- Everything before the first occurrence of `pat`, and everything after it. -/
def splitOn1 (pat : Bytes) : Bytes → Option (Bytes × Bytes)
  | [] => if pat = [] then some ([], []) else none
  | c :: r =>
    if startsWith pat (c :: r) then some ([], (c :: r).drop pat.length)
    else (splitOn1 pat r).map (fun p => (c :: p.1, p.2))

/-- `while data and data[-1:] in EOL: data = data[:-1]`, base.py:480-482. -/
def rstripEol (d : Bytes) : Bytes := (d.reverse.dropWhile isEol).reverse

/-- `[CR]LF` after the `stream` keyword, base.py:448-454. -/
def afterStreamKw : Bytes → Bytes
  | 13 :: 10 :: r => r
  | 13 :: r => r
  | 10 :: r => r
  | r => r

/-- Variants of the parser. -/
inductive Kind where
  | base | inline | content
  deriving DecidableEq, Repr

/-- Configuration: `indirect_references_allowed`, the subclass, and how an indirect `Length` is
resolved (`none` = BasicTypesParser: not resolved; `some f` = RegistryPDFParser._stream,
document.py:611-622, with `f` = `locate_object`). -/
structure Cfg where
  refs : Bool
  kind : Kind := .base
  len : Option (Nat → Nat → Res Obj) := none

/-- The number of bytes `read(length)` asks for (`range(length)`): an int or a bool, else TypeError. -/
def lengthOf : Obj → Res Nat
  | .int n => .ok n.toNat
  | .bool b => .ok b.toNat
  | _ => .error .typeError

/-- `_stream` with the Length already resolved, base.py:413-484. -/
def streamBody (d : List (Bytes × Obj)) (length : Obj) (inp : Bytes) : PRes Obj :=
  match readN 6 inp with
  | .error e => .error e
  | .ok (t, r) =>
    if t ≠ b!"stream" then .error .parser
    else
      let start := afterStreamKw r
      match lengthOf length with
      | .error e => .error e
      | .ok n =>
        match readN n start with
        | .error e => .error e
        | .ok (data, r1) =>
          match readN 9 (skipWs r1) with
          | .error e => .error e
          | .ok (t, r2) =>
            if t = b!"endstream" then .ok (.stream d data, r2)
            else
              match splitOn1 b!"endstream" start with
              | none => .error .parser
              | some (data, r3) => .ok (.stream d (rstripEol data), r3)

/-- `_stream`, base.py:413-484 and document.py:611-622. -/
def streamP (cfg : Cfg) (d : List (Bytes × Obj)) (inp : Bytes) : PRes Obj :=
  match dictGet d b!"Length" with
  | none => .error .keyError
  | some (.ref n g) =>
    match cfg.len with
    | none => streamBody d (.ref n g) inp
    | some f =>
      match f n g with
      | .error e => .error e
      | .ok l => streamBody (dictSet d b!"Length" l) l inp
  | some l => streamBody d l inp

/-- Binary data of an inline image (inlineimage.py:54-65): up to the first white space + `EI` or
`EI` + white space; running out of input is a TypeError. -/
def imgData : Bytes → Option (Bytes × Bytes)
  | a :: b :: c :: r =>
    if (isWs a ∧ b = 69 ∧ c = 73) ∨ (a = 69 ∧ b = 73 ∧ isWs c) then some ([], r)
    else (imgData (b :: c :: r)).map (fun p => (a :: p.1, p.2))
  | _ => none

/-- `null_false_true_token`, content.py:58-66. -/
def nullFalseTrueToken (inp : Bytes) : PRes Obj :=
  match tokenP inp with
  | .error e => .error e
  | .ok (t, r) =>
    if t = b!"null" then .ok (.null, r)
    else if t = b!"true" then .ok (.bool true, r)
    else if t = b!"false" then .ok (.bool false, r)
    else .ok (.token t, r)

/-- `dictionary_or_stream_or_hexstring` after its first `<`, base.py:333-351; `dictF` is the loop of
`dictionary`. -/
def dictOrHex (cfg : Cfg) (dictF : Bytes → PRes (List (Bytes × Obj))) (r : Bytes) : PRes Obj :=
  match r with
  | [] => .error .parser
  | c1 :: r1 =>
    if c1 = 60 then
      match skipSC false r1 with
      | .error e => .error e
      | .ok r2 =>
        match dictF r2 with
        | .error e => .error e
        | .ok (d, r3) =>
          match skipSC false r3 with
          | .error e => .error e
          | .ok r4 => if r4.head? = some 115 then streamP cfg d r4 else .ok (.dict d, r4)
    else if isHex c1 || isWs c1 || c1 == 62 then hexstring r
    else .error .parser

/-- `array` after its `[`, base.py:529-550; `arrF` is its loop. -/
def arrayP (arrF : Bytes → PRes (List Obj)) (r : Bytes) : PRes Obj :=
  match skipSC false r with
  | .error e => .error e
  | .ok r1 =>
    match arrF r1 with
    | .error e => .error e
    | .ok (xs, r2) => .ok (.arr xs, r2)

/-- `string` after its `(`, base.py:552-634. -/
def stringP (r : Bytes) : PRes Obj :=
  match strLoop 0 r with
  | .error e => .error e
  | .ok (s, r1) => .ok (.str s, r1)

/-- `name` as an object. -/
def nameObj (inp : Bytes) : PRes Obj :=
  match nameP true inp with
  | .error e => .error e
  | .ok (n, r1) => .ok (.name n, r1)

/-- No basic method applies: "Unexpected token" in the basic parser (base.py:667-668), a token in the
subclasses (inlineimage.py:25-27, content.py:74-82; `BI` starts an inline image). -/
def otherP (k : Kind) (imgF : Bytes → PRes Obj) (inp : Bytes) : PRes Obj :=
  match k with
  | .base => .error .parser
  | .inline =>
    match tokenP inp with
    | .error e => .error e
    | .ok (t, r1) => .ok (.token t, r1)
  | .content =>
    match tokenP inp with
    | .error e => .error e
    | .ok (t, r1) => if t = b!"BI" then imgF r1 else .ok (.token t, r1)

/-- The method chosen by `_get_parser` (base.py:636-659; content.py:68-88; inlineimage.py:23-28) on the
current byte `c`, applied. The recursive methods (loop of `dictionary`, loop of `array`,
`inline_image`) are parameters, tied together below. -/
def objBody (cfg : Cfg) (dictF : Bytes → PRes (List (Bytes × Obj))) (arrF : Bytes → PRes (List Obj))
    (imgF : Bytes → PRes Obj) (c : Byte) (r : Bytes) : PRes Obj :=
  if cfg.kind = .content ∧ (c = 110 ∨ c = 102 ∨ c = 116) then nullFalseTrueToken (c :: r)
  else if c = 60 then dictOrHex cfg dictF r
  else if c = 91 then arrayP arrF r
  else if c = 40 then stringP r
  else if c = 110 then keyword b!"null" .null (c :: r)
  else if c = 102 then keyword b!"false" (.bool false) (c :: r)
  else if c = 116 then keyword b!"true" (.bool true) (c :: r)
  else if c = 43 ∨ c = 45 ∨ c = 46 then numeric (c :: r)
  else if isDigit c then
    if cfg.refs then numericOrRef (c :: r) else numeric (c :: r)
  else if c = 47 then nameObj (c :: r)
  else otherP cfg.kind imgF (c :: r)

mutual
/-- `object`, base.py:661-669. The recursion is bounded by `fuel`; the result does not depend on it
(`fuel_mono`, `parser_good`). -/
def objectP (cfg : Cfg) : Nat → Bytes → PRes Obj
  | 0, _ => .error .diverges
  | fuel + 1, inp =>
    match skipSC false inp with
    | .error e => .error e
    | .ok [] => .error .typeError                       -- `None in b'…'`
    | .ok (c :: r) =>
      objBody cfg (fun i => dictLoop cfg fuel [] i) (fun i => arrLoop cfg fuel i)
        (fun i => imageP fuel i) c r

/-- Loop of `array`, base.py:543-549, entered after `maybe_spaces_or_comments`. -/
def arrLoop (cfg : Cfg) : Nat → Bytes → PRes (List Obj)
  | 0, _ => .error .diverges
  | fuel + 1, inp =>
    if inp.head? = some 93 then .ok ([], inp.tail)
    else
      match objectP cfg fuel inp with
      | .error e => .error e
      | .ok (o, r) =>
        match skipSC false r with
        | .error e => .error e
        | .ok r1 =>
          match arrLoop cfg fuel r1 with
          | .error e => .error e
          | .ok (xs, r2) => .ok (o :: xs, r2)

/-- Loop of `dictionary`, base.py:386-393, entered after `maybe_spaces_or_comments`. -/
def dictLoop (cfg : Cfg) : Nat → List (Bytes × Obj) → Bytes → PRes (List (Bytes × Obj))
  | 0, _, _ => .error .diverges
  | fuel + 1, acc, inp =>
    if inp.head? = some 62 then
      if inp.tail.head? = some 62 then .ok (acc, inp.tail.tail) else .error .parser
    else
      match nameP true inp with
      | .error e => .error e
      | .ok (k, r) =>
        match skipSC false r with
        | .error e => .error e
        | .ok r1 =>
          match objectP cfg fuel r1 with
          | .error e => .error e
          | .ok (v, r2) =>
            match skipSC false r2 with
            | .error e => .error e
            | .ok r3 => dictLoop cfg fuel (dictSet acc k v) r3

/-- Loop of `InlineImageParser.entities`, inlineimage.py:30-44, after `maybe_spaces_or_comments`. -/
def entLoop : Nat → List (Bytes × Obj) → Bytes → PRes (List (Bytes × Obj))
  | 0, _, _ => .error .diverges
  | fuel + 1, acc, inp =>
    if inp.head? = some 73 then
      if inp.tail.head? = some 68 then .ok (acc, inp.tail.tail) else .error .parser
    else
      match nameP true inp with
      | .error e => .error e
      | .ok (k, r) =>
        match skipSC false r with
        | .error e => .error e
        | .ok r1 =>
          match objectP { refs := false, kind := .inline } fuel r1 with
          | .error e => .error e
          | .ok (.token _, _) => .error .parser
          | .ok (v, r2) =>
            match skipSC false r2 with
            | .error e => .error e
            | .ok r3 => entLoop fuel (dictSet acc k v) r3

/-- `InlineImageParser.inline_image` after the token `BI`, inlineimage.py:46-68. -/
def imageP : Nat → Bytes → PRes Obj
  | 0, _ => .error .diverges
  | fuel + 1, inp =>
    match skipSC false inp with
    | .error e => .error e
    | .ok r0 =>
      match entLoop fuel [] r0 with
      | .error e => .error e
      | .ok (d, r) =>
        match r with
        | c :: r1 =>
          if isWs c then
            match imgData r1 with
            | none => .error .typeError
            | some (data, r2) => .ok (.image d data, r2)
          else .error .parser
        | [] => .error .parser
end

/-- Enough fuel for any parse of `inp`. -/
def fuelFor (inp : Bytes) : Nat := 4 * inp.length + 4

/-- Parse one object: `BasicTypesParser(...).object()` and subclasses. -/
def parseObject (cfg : Cfg) (inp : Bytes) : PRes Obj := objectP cfg (fuelFor inp) inp

/-- The parser of files: references allowed (`indirect_references_allowed`, base.py:11). -/
def fileCfg : Cfg := { refs := true }

/-- The parser of content streams (content.py:19). -/
def contentCfg : Cfg := { refs := false, kind := .content }

end PdfReader
