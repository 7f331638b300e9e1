/-
  CMaps: pdfreader/parsers/cmap.py (CMapParser), types/cmap.py, and the class CMAPDecoder of
  codecs/decoder.py.
-/
import Verif.Model.Parser

namespace PdfReader

/-- A Python `str`: its code points (surrogates may occur). -/
abbrev Text := List Nat

/-- `HexString.as_int` = `int(self, 16)`, types/native.py:31-33, for strings of hexadecimal digits; the empty string is a
ValueError. Simplification: any other character is a ValueError (Python also takes signs, blanks and
underscores, which no hexadecimal string object contains). -/
def hexNat (d : Bytes) : Res Nat :=
  if d = [] then .error .valueError
  else
    d.foldl (fun a c => match a, hexVal? c with | .ok n, some v => .ok (16 * n + v) | _, _ => .error .valueError) (.ok 0)

/-- `.upper()` on ASCII letters. -/
def upperAscii (c : Byte) : Byte := if 97 ≤ c.toNat ∧ c.toNat ≤ 122 then c - 32 else c

/-- `Range`, types/cmap.py:5-18: the number of digits and the two bounds. -/
structure CodeRange where
  size : Nat
  lo : Nat
  hi : Nat
  deriving DecidableEq, Repr

/-- `Range.__init__`, types/cmap.py:7-18. -/
def mkRange (begin' end' : Bytes) : Res CodeRange :=
  if begin'.length ≠ end'.length then .error .assertion
  else
    match hexNat begin', hexNat end' with
    | .ok lo, .ok hi => if lo > hi then .error .valueError else .ok ⟨begin'.length, lo, hi⟩
    | _, _ => .error .valueError

/-- `Range.__contains__`, types/cmap.py:23-42. -/
def CodeRange.contains (r : CodeRange) (item : Bytes) : Res Bool :=
  if item.length ≠ r.size then .ok false
  else
    match hexNat item with
    | .error e => .error e
    | .ok n => .ok (decide (r.lo ≤ n ∧ n ≤ r.hi))

/-- One mapping: `MapRange` (types/cmap.py:67-113) or `BFChar` (types/cmap.py:119-226). The destination of a `BFChar`
made from a name is kept like hexadecimal digits. -/
inductive MapEntry where
  | range (r : CodeRange) (dst : Int)
  | char (begin' mapped : Bytes)
  deriving DecidableEq, Repr

/-- `chr(code)` or the replacement character, types/cmap.py:90-96. -/
def chrOr (code : Int) : Nat := if 0 ≤ code ∧ code ≤ 0x10FFFF then code.toNat else 0xFFFD

/-- `[self.mapped[i:i+4] for i in range(0, len(self.mapped), 4)]` as characters, types/cmap.py:208-211. -/
def units : Bytes → Res Text
  | [] => .ok []
  | [a] => (hexNat [a]).map (fun n => [n])
  | [a, b] => (hexNat [a, b]).map (fun n => [n])
  | [a, b, c] => (hexNat [a, b, c]).map (fun n => [n])
  | a :: b :: c :: d :: r =>
    match hexNat [a, b, c, d] with
    | .error e => .error e
    | .ok n =>
      match units r with
      | .error e => .error e
      | .ok ns => .ok (n :: ns)

/-- `item in r`, types/cmap.py:23-42 and 132-143. -/
def MapEntry.contains (m : MapEntry) (item : Bytes) : Res Bool :=
  match m with
  | .range r _ => r.contains item
  | .char b _ => .ok (decide (item.map upperAscii = b))

/-- `r[item]`, types/cmap.py:75-98 and 155-212. -/
def MapEntry.get (m : MapEntry) (item : Bytes) : Res Text :=
  match m with
  | .range r dst =>
    match r.contains item with
    | .error e => .error e
    | .ok false => .error .keyError
    | .ok true =>
      match hexNat item with
      | .error e => .error e
      | .ok n => .ok [chrOr (dst + ((n : Int) - r.lo))]
  | .char b mapped => if item ≠ b then .error .keyError else units mapped

/-- `MappedCodespaceRanges.__getitem__`, types/cmap.py:318-339: the first range containing the code counts. -/
def mapGet : List MapEntry → Bytes → Res Text
  | [], _ => .error .keyError
  | m :: ms, item =>
    match m.contains item with
    | .error e => .error e
    | .ok true => m.get item
    | .ok false => mapGet ms item

/-! ### The parser -/

/-- The CMap parser: no references (parsers/cmap.py:18). -/
def cmapCfg : Cfg := { refs := false }

/-- `expected_token` and `expected_name`, base.py:720-730. -/
def expectToken (t inp : Bytes) : Res Bytes :=
  match tokenP inp with
  | .error e => .error e
  | .ok (t', r) => if t' = t then .ok r else .error .parser

/-- `expected_name`, base.py:720-724. -/
def expectName (n inp : Bytes) : Res Bytes :=
  match nameP true inp with
  | .error e => .error e
  | .ok (n', r) => if n' = n then .ok r else .error .parser

/-- `object_or_token`, parsers/cmap.py:20-28. -/
def objectOrToken (inp : Bytes) : PRes Obj :=
  match parseObject cmapCfg inp with
  | .error .parser =>
    match tokenP inp with
    | .error e => .error e
    | .ok (t, r) => .ok (.token t, r)
  | r => r

/-- `skip_until_token`, parsers/cmap.py:42-55: the input from the token on, `none` at the end of input. -/
def skipUntilToken (name : Bytes) : Nat → Bytes → Res (Option Bytes)
  | 0, _ => .error .diverges
  | fuel + 1, inp =>
    match skipSC false inp with
    | .error e => .error e
    | .ok [] => .ok none
    | .ok (c :: r) =>
      match objectOrToken (c :: r) with
      | .error e => .error e
      | .ok (o, r1) => if o = .token name then .ok (some (name ++ r1)) else skipUntilToken name fuel r1

/-- `skip_until_name`, parsers/cmap.py:30-40: `len(name) + 1` bytes are put back. -/
def skipUntilName (name : Bytes) : Nat → Bytes → Res Bytes
  | 0, _ => .error .diverges
  | fuel + 1, inp =>
    match skipSC false inp with
    | .error e => .error e
    | .ok [] => .ok []
    | .ok (c :: r) =>
      match objectOrToken (c :: r) with
      | .error e => .error e
      | .ok (o, r1) =>
        if o = .name name then .ok ((c :: r).drop ((c :: r).length - (r1.length + name.length + 1)))
        else skipUntilName name fuel r1

/-- `cmap_name`, parsers/cmap.py:57-61. -/
def cmapName (inp : Bytes) : Res Bytes :=
  match skipUntilName b!"CMapName" (inp.length + 1) inp with
  | .error e => .error e
  | .ok r =>
    match expectName b!"CMapName" r with
    | .error e => .error e
    | .ok r1 =>
      match skipSC false r1 with
      | .error e => .error e
      | .ok r2 =>
        match nameP true r2 with
        | .error e => .error e
        | .ok (n, _) => .ok n

/-- `hexstring` from its `<` on, base.py:486-527. -/
def hexDigits (inp : Bytes) : PRes Bytes :=
  match inp with
  | [] => .error .parser
  | c :: r =>
    if c = 60 then
      match hexstring r with
      | .error e => .error e
      | .ok (.hex d, r1) => .ok (d, r1)
      | .ok _ => .error .parser
    else .error .parser

/-- Two hexadecimal strings with the blanks after them, parsers/cmap.py:195-198, 209-212, 231-234. -/
def twoHex (inp : Bytes) : PRes (Bytes × Bytes) :=
  match hexDigits inp with
  | .error e => .error e
  | .ok (a, r) =>
    match skipSC false r with
    | .error e => .error e
    | .ok r1 =>
      match hexDigits r1 with
      | .error e => .error e
      | .ok (b, r2) =>
        match skipSC false r2 with
        | .error e => .error e
        | .ok r3 => .ok ((a, b), r3)

/-- Loop of `codespacerange`, parsers/cmap.py:194-200. -/
def codespaceLoop : Nat → Bytes → PRes (List CodeRange)
  | 0, _ => .error .diverges
  | fuel + 1, inp =>
    if inp.head? = some 60 then
      match twoHex inp with
      | .error e => .error e
      | .ok ((a, b), r) =>
        match mkRange a b with
        | .error e => .error e
        | .ok x =>
          match codespaceLoop fuel r with
          | .error e => .error e
          | .ok (xs, r1) => .ok (x :: xs, r1)
    else .ok ([], inp)

/-- Upper case digits of `n`, most significant first (`hex(n)[2:].upper()`, empty for 0); `fuel` bounds their
number. -/
def hexOf : Nat → Nat → Bytes
  | 0, _ => []
  | f + 1, n => if n = 0 then [] else hexOf f (n / 16) ++ [hexDigitUp (n % 16)]

/-- `hex(n)[2:].upper().zfill(size)`, types/cmap.py:64, for `n < 16 ^ size` and `size > 0`. -/
def zfillHex (size n : Nat) : Bytes :=
  let d := hexOf size n
  List.replicate (size - d.length) 48 ++ d

/-- `BFChar.__init__`, types/cmap.py:125-127, for an element of an array. -/
def mkChar (code : Bytes) (dst : Obj) : Res MapEntry :=
  match dst with
  | .hex d => .ok (.char (code.map upperAscii) (d.map upperAscii))
  | .name n => .ok (.char (code.map upperAscii) (n.map upperAscii))
  | .str _ => .error .typeError
  | .stream _ _ => .error .typeError
  | _ => .error .attributeError

/-- `for i, v in enumerate(Range(cr_from, cr_to)): res.add(BFChar(v, cid_from[i]))`, parsers/cmap.py:219-220, for `k`
more codes from `n` on. -/
def charsFrom (size : Nat) : Nat → Nat → List Obj → Res (List MapEntry)
  | 0, _, _ => .ok []
  | _ + 1, _, [] => .error .indexError
  | k + 1, n, o :: os =>
    match mkChar (zfillHex size n) o with
    | .error e => .error e
    | .ok m =>
      match charsFrom size k (n + 1) os with
      | .error e => .error e
      | .ok ms => .ok (m :: ms)

/-- The mappings of one row of a range section, parsers/cmap.py:214-220 (`True` and `False` are integers). -/
def rowEntries (a b : Bytes) (dst : Obj) : Res (List MapEntry) :=
  match dst with
  | .int n =>
    match mkRange a b with
    | .error e => .error e
    | .ok r => .ok [.range r n]
  | .bool v =>
    match mkRange a b with
    | .error e => .error e
    | .ok r => .ok [.range r v.toNat]
  | .hex d =>
    match mkRange a b with
    | .error e => .error e
    | .ok r =>
      match hexNat d with
      | .error e => .error e
      | .ok n => .ok [.range r n]
  | .arr os =>
    match mkRange a b with
    | .error e => .error e
    | .ok r => charsFrom r.size (r.hi + 1 - r.lo) r.lo os
  | _ => .error .parser

/-- Loop of `mapped_codespacerange`, parsers/cmap.py:208-221. -/
def rangeLoop : Nat → Bytes → PRes (List MapEntry)
  | 0, _ => .error .diverges
  | fuel + 1, inp =>
    if inp.head? = some 60 then
      match twoHex inp with
      | .error e => .error e
      | .ok ((a, b), r) =>
        match parseObject cmapCfg r with
        | .error e => .error e
        | .ok (dst, r1) =>
          match rowEntries a b dst with
          | .error e => .error e
          | .ok ms =>
            match skipSC false r1 with
            | .error e => .error e
            | .ok r2 =>
              match rangeLoop fuel r2 with
              | .error e => .error e
              | .ok (ms', r3) => .ok (ms ++ ms', r3)
    else .ok ([], inp)

/-- The mapping of one row of a char section, parsers/cmap.py:235-238. -/
def charEntry (bf : Bool) (a b : Bytes) : Res MapEntry :=
  if bf then mkChar a (.hex b)
  else
    match mkRange a a with
    | .error e => .error e
    | .ok r =>
      match hexNat b with
      | .error e => .error e
      | .ok n => .ok (.range r n)

/-- Loop of `mapped_char`, parsers/cmap.py:230-239. -/
def charLoop (bf : Bool) : Nat → Bytes → PRes (List MapEntry)
  | 0, _ => .error .diverges
  | fuel + 1, inp =>
    if inp.head? = some 60 then
      match twoHex inp with
      | .error e => .error e
      | .ok ((a, b), r) =>
        match charEntry bf a b with
        | .error e => .error e
        | .ok m =>
          match charLoop bf fuel r with
          | .error e => .error e
          | .ok (ms, r1) => .ok (m :: ms, r1)
    else .ok ([], inp)

/-- A section: `begin…`, blanks, rows, `end…`: parsers/cmap.py:190-202, 204-224, 226-241. -/
def sectionP {α : Type} (loop : Nat → Bytes → PRes (List α)) (kind inp : Bytes) : PRes (List α) :=
  match expectToken (b!"begin" ++ kind) inp with
  | .error e => .error e
  | .ok r =>
    match skipSC false r with
    | .error e => .error e
    | .ok r1 =>
      match loop (r1.length + 1) r1 with
      | .error e => .error e
      | .ok (xs, r2) =>
        match expectToken (b!"end" ++ kind) r2 with
        | .error e => .error e
        | .ok r3 => .ok (xs, r3)

/-- `while self.skip_until_token(…): ….merge(…)`, parsers/cmap.py:151-182. -/
def sections' {α : Type} (loop : Nat → Bytes → PRes (List α)) (kind : Bytes) : Nat → Bytes → Res (List α)
  | 0, _ => .error .diverges
  | fuel + 1, inp =>
    match skipUntilToken (b!"begin" ++ kind) (inp.length + 1) inp with
    | .error e => .error e
    | .ok none => .ok []
    | .ok (some r) =>
      match sectionP loop kind r with
      | .error e => .error e
      | .ok (xs, r1) =>
        match sections' loop kind fuel r1 with
        | .error e => .error e
        | .ok ys => .ok (xs ++ ys)

/-- All sections of a kind, from the start of the body (`set_state(state)`). -/
def allSections {α : Type} (loop : Nat → Bytes → PRes (List α)) (kind inp : Bytes) : Res (List α) :=
  sections' loop kind (inp.length + 1) inp

/-- `CMapResource`, types/cmap.py:376-384. -/
structure CMap where
  name : Option Bytes
  codespace : List CodeRange
  cid : List MapEntry
  notdef : List MapEntry
  bf : List MapEntry
  deriving DecidableEq, Repr

/-- Blanks and then a token. -/
def blanksThen (t : Bytes → Res Bytes) (inp : Bytes) : Res Bytes :=
  match skipSC false inp with
  | .error e => .error e
  | .ok r => t r

/-- The fixed start of a CMap, parsers/cmap.py:114-137: the input after `begincmap`. -/
def cmapHead (inp : Bytes) : Res Bytes :=
  match blanksThen (expectName b!"CIDInit") inp with
  | .error e => .error e
  | .ok r1 =>
    match blanksThen (expectName b!"ProcSet") r1 with
    | .error e => .error e
    | .ok r2 =>
      match blanksThen (expectToken b!"findresource") r2 with
      | .error e => .error e
      | .ok r3 =>
        match blanksThen (expectToken b!"begin") r3 with
        | .error e => .error e
        | .ok r4 =>
          match blanksThen (fun r => (nonNegInt r).map (·.2)) r4 with
          | .error e => .error e
          | .ok r5 =>
            match blanksThen (expectToken b!"dict") r5 with
            | .error e => .error e
            | .ok r6 =>
              match blanksThen (expectToken b!"begin") r6 with
              | .error e => .error e
              | .ok r7 => blanksThen (expectToken b!"begincmap") r7

/-- `try: name = self.cmap_name() except ParserException: name = None`, parsers/cmap.py:141-146: a missing name is no
error. -/
def cmapNameOpt (r : Bytes) : Res (Option Bytes) :=
  match cmapName r with
  | .ok n => .ok (some n)
  | .error .parser => .ok none
  | .error e => .error e

/-- The rest of `CMapParser.cmap`, parsers/cmap.py:138-188. -/
def cmapBody (r : Bytes) : Res CMap :=
  match cmapNameOpt r with
  | .error e => .error e
  | .ok name =>
    match allSections codespaceLoop b!"codespacerange" r with
    | .error e => .error e
    | .ok cs =>
      match allSections rangeLoop b!"cidrange" r with
      | .error e => .error e
      | .ok cr =>
        match allSections (charLoop false) b!"cidchar" r with
        | .error e => .error e
        | .ok cc =>
          match allSections rangeLoop b!"notdefrange" r with
          | .error e => .error e
          | .ok nr =>
            match allSections (charLoop false) b!"notdefchar" r with
            | .error e => .error e
            | .ok nc =>
              match allSections rangeLoop b!"bfrange" r with
              | .error e => .error e
              | .ok br =>
                match allSections (charLoop true) b!"bfchar" r with
                | .error e => .error e
                | .ok bc => .ok { name := name, codespace := cs, cid := cr ++ cc, notdef := nr ++ nc, bf := br ++ bc }

/-- `CMapParser(…).cmap()`, parsers/cmap.py:63-188. -/
def cmapP (inp : Bytes) : Res CMap :=
  match cmapHead inp with
  | .error e => .error e
  | .ok r =>
    match skipSC false r with
    | .error e => .error e
    | .ok r1 => cmapBody r1

/-! ### Decoding -/

/-- `[s[i:i + 2] for i in range(0, len(s), 2)]`, decoder.py:126. -/
def chunks2 : Bytes → List Bytes
  | [] => []
  | [a] => [[a]]
  | a :: b :: r => [a, b] :: chunks2 r

/-- A byte which starts no mapped code, decoder.py:137-141. -/
def loneByte (fallback : Bytes → Res Text) (x : Bytes) : Res Text := if x = b!"00" then .ok [] else fallback x

/-- Loop of `CMAPDecoder.decode_hexstring`, decoder.py:128-146; `fallback` is
`self._encoding_decoder.decode_hexstring`. -/
def decodeLoop (bf : List MapEntry) (fallback : Bytes → Res Text) : Nat → Bytes → List Bytes → Res Text
  | 0, _, _ => .error .diverges
  | _ + 1, code, [] => if code = [] then .ok [] else fallback code
  | fuel + 1, code, c :: codes =>
    let code := code ++ c
    match mapGet bf code with
    | .ok ch =>
      match decodeLoop bf fallback fuel [] codes with
      | .error e => .error e
      | .ok t => .ok (ch ++ t)
    | .error .keyError =>
      if code.length < 4 then decodeLoop bf fallback fuel code codes
      else
        match loneByte fallback (code.take 2) with
        | .error e => .error e
        | .ok ch =>
          match decodeLoop bf fallback fuel [] (code.drop 2 :: codes) with
          | .error e => .error e
          | .ok t => .ok (ch ++ t)
    | .error e => .error e

/-- `CMAPDecoder.decode_hexstring`, decoder.py:124-150. -/
def cmapDecodeHex (bf : List MapEntry) (fallback : Bytes → Res Text) (s : Bytes) : Res Text :=
  decodeLoop bf fallback (2 * (chunks2 s).length + 2) [] (chunks2 s)

/-- `s.hex().upper()`, decoder.py:153. -/
def hexUpper : Bytes → Bytes
  | [] => []
  | c :: r => hexDigitUp (c.toNat / 16) :: hexDigitUp (c.toNat % 16) :: hexUpper r

/-- `CMAPDecoder.decode_string`, decoder.py:152-154. -/
def cmapDecodeStr (bf : List MapEntry) (fallback : Bytes → Res Text) (s : Bytes) : Res Text :=
  cmapDecodeHex bf fallback (hexUpper s)

end PdfReader
