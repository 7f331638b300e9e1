/-
  File structure: pdfreader/parsers/document.py (PDFParser), types/xref.py.
-/
import Verif.Model.Parser
import Verif.Model.Buffer

namespace PdfReader

/-! ### Header -/

/-- `(\d\.\d)` at the beginning of `w`. -/
def verAt (w : Bytes) : Option Bytes :=
  match w with
  | a :: p :: b :: _ => if isDigit a && p == 46 && isDigit b then some [a, p, b] else none
  | _ => none

/-- `%PDF-(\d\.\d)` matched at the beginning of `w` (document.py:16). -/
def pdfAt (w : Bytes) : Option Bytes :=
  if startsWith b!"%PDF-" w then verAt (w.drop 5) else none

/-- `%IPS-Adobe-\d\.\d PDF-(\d\.\d)` matched at the beginning of `w` (document.py:17). -/
def ipsAt (w : Bytes) : Option Bytes :=
  if startsWith b!"%IPS-Adobe-" w && (verAt (w.drop 11)).isSome && startsWith b!" PDF-" (w.drop 14) then
    verAt (w.drop 19)
  else none

/-- `re.search` of `^pat` with MULTILINE: the first match at the beginning of the window or after an LF.
`bol` = we are at such a place, `i` = position. -/
def search (pat : Bytes → Option Bytes) : Bool → Nat → Bytes → Option (Nat × Bytes)
  | _, _, [] => none
  | bol, i, c :: r =>
    match bol, pat (c :: r) with
    | true, some v => some (i, v)
    | _, _ => search pat (c == 10) (i + 1) r

/-- `PDF_HEADER.search(window) or IPS_HEADER.search(window)`, document.py:147. -/
def headerIn (w : Bytes) : Option (Nat × Bytes) :=
  (search pdfAt true 0 w).or (search ipsAt true 0 w)

/-- Loop of `pdf_header`, document.py:147-160: the window of 22 bytes starts at `i`; `budget` is
`1024 - n_read`. Yields the version and the offset of the header. -/
def headerLoop (file : Bytes) : Nat → Nat → Res (Bytes × Nat)
  | budget, i =>
    match headerIn (fileRead file i 22) with
    | some (k, v) => .ok (v, i + k)
    | none =>
      match budget with
      | 0 => .error .parser
      | b + 1 => if i + 22 < file.length then headerLoop file b (i + 1) else .error .parser

/-- `pdf_header`, document.py:142-160: reading 22 bytes of a shorter file is a TypeError. -/
def pdfHeader (file : Bytes) : Res (Bytes × Nat) :=
  if file.length < 22 then .error .typeError else headerLoop file 1002 0

/-! ### startxref -/

/-- Loop of `seek_eof`, document.py:359-365: the window `file[k:k+5]`, going backwards, at most `budget`
windows, and never the one at offset 0 (there `is_eof` holds before the test). -/
def eofBack (file : Bytes) : Nat → Nat → Option Nat
  | 0, _ => none
  | _ + 1, 0 => none
  | b + 1, k + 1 => if startsWith b!"%%EOF" (file.drop (k + 1)) then some (k + 1) else eofBack file b k

/-- `seek_eof`, document.py:352-366, for a file whose `seek(-1024, SEEK_END)` clamps at the start (BytesIO,
`clamps = true`) or raises OSError when the file is shorter (real files). The result is the offset of
`%%EOF`. -/
def seekEof (clamps : Bool) (file : Bytes) : Res Nat :=
  if file.length < 1024 ∧ clamps = false then .error .osError
  else if file.length < 5 then .error .typeError
  else
    match eofBack file 1019 (file.length - 5) with
    | some k => .ok k
    | none => .error .parser

/-- Loop of `xref_offset`, document.py:399-405: the window `file[s:s+9]`, going backwards, never at offset 0. -/
def findBack (file : Bytes) : Nat → Option Nat
  | 0 => none
  | s + 1 => if startsWith b!"startxref" (file.drop (s + 1)) then some (s + 1) else findBack file s

/-- `xref_offset`, document.py:391-410. The number is read forward from after the keyword; the model is
exact when it ends before the end of the file (reading past the end after having read backwards
delivers wrong bytes, see C09). -/
def xrefOffset (clamps : Bool) (file : Bytes) : Res Nat :=
  match seekEof clamps file with
  | .error e => .error e
  | .ok k =>
    if k < 9 then .error .typeError
    else
      match findBack file (k - 9) with
      | none => .error .parser
      | some s =>
        match skipSC false (file.drop (s + 9)) with
        | .error e => .error e
        | .ok r =>
          match nonNegInt r with
          | .error e => .error e
          | .ok (n, _) => .ok n

/-! ### Cross-reference table -/

/-- Entry of a table: types/xref.py:44-56. -/
structure XEntry where
  offset : Nat
  gen : Nat
  deriving DecidableEq, Repr

/-- `d[k] = v` and `d.get(k)` for dicts with int keys. -/
def natSet {α : Type} : List (Nat × α) → Nat → α → List (Nat × α)
  | [], k, v => [(k, v)]
  | (k', v') :: es, k, v => if k' = k then (k, v) :: es else (k', v') :: natSet es k v

def natGet {α : Type} : List (Nat × α) → Nat → Option α
  | [], _ => none
  | (k', v') :: es, k => if k' = k then some v' else natGet es k

/-- `XRef`, types/xref.py:77-97. A compressed entry has generation 0 and an index. -/
structure XRef where
  free : List (Nat × XEntry) := []
  inUse : List (Nat × XEntry) := []
  compressed : List (Nat × Nat) := []
  deriving DecidableEq, Repr

/-- White space of `bytes.strip()` and `int()`. -/
def pySpace (c : Byte) : Bool := decide (9 ≤ c.toNat ∧ c.toNat ≤ 13) || c == 32

/-- `bytes.strip()`. -/
def pyStrip (b : Bytes) : Bytes := ((b.dropWhile pySpace).reverse.dropWhile pySpace).reverse

/-- Digits with single underscores between them, as `int()` accepts them; the flag says that a digit is
required next. -/
def pyDigits : Bool → Nat → Bytes → Option Nat
  | need, acc, [] => if need then none else some acc
  | need, acc, c :: r =>
    if isDigit c then pyDigits false (10 * acc + (c.toNat - 48)) r
    else if c == 95 && !need then pyDigits true acc r
    else none

/-- `int(b)` of a bytes value; `none` = ValueError. -/
def pyInt (b : Bytes) : Option Int :=
  match pyStrip b with
  | [] => none
  | c :: r =>
    if c == 45 then (pyDigits true 0 r).map (fun n => -(n : Int))
    else if c == 43 then (pyDigits true 0 r).map (fun n => (n : Int))
    else (pyDigits true 0 (c :: r)).map (fun n => (n : Int))

/-- `while current != …: d += next()`: what comes before the first byte with `p`; `none` = the end of
input was reached (TypeError). -/
def takeTo (p : Byte → Bool) : Bytes → Option (Bytes × Bytes)
  | [] => none
  | c :: r => if p c then some ([], c :: r) else (takeTo p r).map (fun q => (c :: q.1, q.2))

/-- `maybe_eol`, base.py:80-87, at a CR or LF. -/
def dropEol : Bytes → Bytes
  | [] => []
  | c :: r =>
    if c = 13 then (if r.head? = some 10 then r.tail else r)
    else if c = 10 then r
    else c :: r

/-- `xref_range` and `eol`, document.py:289-308, 269. -/
def xrefRange (inp : Bytes) : PRes (Int × Int) :=
  match takeTo (· == 32) inp with
  | none => .error .typeError
  | some (d1, r) =>
    match takeTo isEol r.tail with
    | none => .error .typeError
    | some (d2, r2) =>
      match pyInt d1, pyInt d2 with
      | some a, some b => .ok ((a, b), dropEol r2)
      | _, _ => .error .parser

/-- `data.split(b" ", 2)` into three parts; `none` = fewer parts (ValueError). -/
def split3 (data : Bytes) : Option (Bytes × Bytes × Bytes) :=
  match takeTo (· == 32) data with
  | none => none
  | some (a, r) =>
    match takeTo (· == 32) r.tail with
    | none => none
    | some (b, r2) => some (a, b, r2.tail)

/-- `xref_entry`, document.py:310-320, on its 20 bytes. The Boolean says `n` (in use). -/
def xrefEntry (raw : Bytes) : Res (Int × Int × Bool) :=
  match split3 (pyStrip raw) with
  | none => .error .valueError
  | some (a, b, f) =>
    match pyInt a, pyInt b with
    | some off, some gen =>
      if f = b!"n" then .ok (off, gen, true)
      else if f = b!"f" then .ok (off, gen, false)
      else .error .parser
    | _, _ => .error .parser

/-- `XRef.add_entry` of an `XRefEntry`, types/xref.py:91-97. -/
def XRef.add (x : XRef) (num : Nat) (e : XEntry) (inUse : Bool) : XRef :=
  if inUse then { x with inUse := natSet x.inUse num e } else { x with free := natSet x.free num e }

/-- Loop over the entries of a subsection, document.py:270-272: entry `first + i`. Negative offsets or
generations fail an assertion (types/xref.py:17-18, 49-50). -/
def xrefEntries : Nat → Nat → XRef → Bytes → PRes XRef
  | 0, _, x, inp => .ok (x, inp)
  | n + 1, num, x, inp =>
    match readN 20 inp with
    | .error e => .error e
    | .ok (raw, r) =>
      match xrefEntry raw with
      | .error e => .error e
      | .ok (off, gen, use) =>
        if off < 0 ∨ gen < 0 then .error .assertion
        else xrefEntries n (num + 1) (x.add num ⟨off.toNat, gen.toNat⟩ use) r

/-- Loop over the subsections, document.py:267-273. `None in b'…'` at the end of input is a TypeError.
The first number starts with a digit, so it is not negative; a negative count is an empty range. -/
def xrefSubs : Nat → XRef → Bytes → PRes XRef
  | 0, _, _ => .error .diverges
  | fuel + 1, x, inp =>
    match inp with
    | [] => .error .typeError
    | c :: _ =>
      if isDigit c then
        match xrefRange inp with
        | .error e => .error e
        | .ok ((a, n), r) =>
          match xrefEntries n.toNat a.toNat x r with
          | .error e => .error e
          | .ok (x', r') => xrefSubs fuel x' r'
      else .ok (x, inp)

/-- `direct_xref`, document.py:262-273. -/
def directXref (inp : Bytes) : PRes XRef :=
  match readN 4 inp with
  | .error e => .error e
  | .ok (t, r) =>
    if t = b!"xref" then
      match skipSC false r with
      | .error e => .error e
      | .ok r1 => xrefSubs (r1.length + 1) {} r1
    else .error .parser

/-! ### Cross-reference streams -/

/-- `int.from_bytes(b, "big")`. -/
def beVal (b : Bytes) : Nat := b.foldl (fun a c => 256 * a + c.toNat) 0

/-- Column `j` of a row, types/xref.py:136-145: `off` and `w` are its offset and width; a width of 0 gives
0. -/
def xrefCol (row : Bytes) (off w : Nat) : Nat := if w = 0 then 0 else beVal ((row.drop off).take w)

/-- One row, types/xref.py:133-163. -/
def xrefRow (w0 w1 w2 : Nat) (objnum : Nat) (x : XRef) (row : Bytes) : XRef :=
  let c0 := xrefCol row 0 w0
  let c1 := xrefCol row w0 w1
  let c2 := xrefCol row (w0 + w1) w2
  if c0 = 0 then { x with free := natSet x.free c1 ⟨0, c2⟩ }
  else if c0 = 1 then { x with inUse := natSet x.inUse objnum ⟨c1, c2⟩ }
  else if c0 = 2 then { x with compressed := natSet x.compressed c1 c2 }
  else x

/-- The loop over the rows, types/xref.py:131-163; `fuel` bounds the number of rows (the length of the data
is enough when `rowsize > 0`). -/
def xrefRows (w0 w1 w2 rowsize : Nat) : Nat → Nat → XRef → Bytes → XRef
  | 0, _, x, _ => x
  | fuel + 1, objnum, x, data =>
    if data = [] then x
    else xrefRows w0 w1 w2 rowsize fuel (objnum + 1) (xrefRow w0 w1 w2 objnum x (data.take rowsize)) (data.drop rowsize)

/-- Python truth value of an object as the code tests it (`if x:`, `x or y`). -/
def truthy : Obj → Bool
  | .null => false
  | .bool b => b
  | .int n => n != 0
  | .real c _ => c != 0
  | .name n => n != []
  | .str s => s != []
  | .hex s => s != []
  | .arr xs => !xs.isEmpty
  | .dict es => !es.isEmpty
  | .stream _ data => data != []
  | _ => true

/-- `o == "text"`: names, tokens and hexadecimal strings are `str` (types/native.py:22-37, 178). -/
def isText (o : Obj) (t : Bytes) : Bool :=
  match o with
  | .name n => n == t
  | .token n => n == t
  | .hex n => n == t
  | _ => false

/-- The values `IndirectObject` accepts, types/native.py:148-151: no tokens. -/
def isValue : Obj → Bool
  | .token _ => false
  | .image _ _ => false
  | _ => true

/-- A list of non-negative integers (anything else is an error in the model; Python would fail with some
TypeError, or compute with negative widths). -/
def natsOf : List Obj → Option (List Nat)
  | [] => some []
  | .int n :: r => if n < 0 then none else (natsOf r).map (n.toNat :: ·)
  | _ => none

/-- First object number, types/xref.py:118-124: only the first pair of `Index` is looked at. -/
def xrefFirst (d : List (Bytes × Obj)) : Res Nat :=
  match dictGet d b!"Index" with
  | some (.arr (a :: _ :: _)) =>
    match a with
    | .int n => if n < 0 then .error .assertion else .ok n.toNat
    | _ => .error .typeError
  | some (.arr [_]) => .error .valueError
  | o =>
    if truthy (o.getD .null) then .error .typeError
    else
      match dictGet d b!"Size" with
      | none => .error .keyError
      | some _ => .ok 0

/-- `XRef.from_stream`, types/xref.py:112-165; `data` is the decoded data of the stream. -/
def xrefFromStream (d : List (Bytes × Obj)) (data : Bytes) : Res XRef :=
  match xrefFirst d with
  | .error e => .error e
  | .ok first =>
    match dictGet d b!"W" with
    | none => .error .keyError
    | some (.arr ws) =>
      match natsOf ws with
      | some (w0 :: w1 :: w2 :: more) =>
        let rowsize := w0 + w1 + w2 + more.foldl (· + ·) 0
        if rowsize = 0 then .error .valueError
        else .ok (xrefRows w0 w1 w2 rowsize data.length first {} data)
      | some _ => .error .indexError
      | none => .error .typeError
    | some _ => .error .typeError

/-! ### Trailers and indirect objects -/

/-- `dictionary`, base.py:381-393. -/
def dictionaryP (cfg : Cfg) (inp : Bytes) : PRes (List (Bytes × Obj)) :=
  match readN 2 inp with
  | .error e => .error e
  | .ok (t, r) =>
    if t = b!"<<" then
      match skipSC false r with
      | .error e => .error e
      | .ok r1 => dictLoop cfg (fuelFor inp) [] r1
    else .error .parser

/-- `trailer`, document.py:225-229. -/
def trailerP (cfg : Cfg) (inp : Bytes) : PRes (List (Bytes × Obj)) :=
  match readN 7 inp with
  | .error e => .error e
  | .ok (t, r) =>
    if t = b!"trailer" then
      match skipSC false r with
      | .error e => .error e
      | .ok r1 => dictionaryP cfg r1
    else .error .parser

/-- `startxref`, document.py:97-102. -/
def startxrefP (inp : Bytes) : PRes Nat :=
  match readN 9 inp with
  | .error e => .error e
  | .ok (t, r) =>
    if t = b!"startxref" then
      match skipSC false r with
      | .error e => .error e
      | .ok r1 => nonNegInt r1
    else .error .parser

/-- `num gen obj` at the beginning of an indirect object, document.py:63-72. -/
def objHeader (inp : Bytes) : PRes (Nat × Nat) :=
  match nonNegInt inp with
  | .error e => .error e
  | .ok (num, r) =>
    match skipSC false r with
    | .error e => .error e
    | .ok r1 =>
      match nonNegInt r1 with
      | .error e => .error e
      | .ok (gen, r2) =>
        match skipSC false r2 with
        | .error e => .error e
        | .ok r3 =>
          match readN 3 r3 with
          | .error e => .error e
          | .ok (t, r4) =>
            if t = b!"obj" then
              match skipSC false r4 with
              | .error e => .error e
              | .ok r5 => .ok ((num, gen), r5)
            else .error .parser

/-- The end of an indirect object, document.py:74-84: only a stream may lack its `endobj`. -/
def objTail (val : Obj) (r : Bytes) : Res Bytes :=
  match skipSC false r with
  | .error e => .error e
  | .ok r1 =>
    match readN 6 r1 with
    | .error e => .error e
    | .ok (t, r2) =>
      if t = b!"endobj" then .ok r2
      else
        match val with
        | .stream _ _ => .ok r1
        | _ => .error .parser

/-- `indirect_object`, document.py:63-87, types/native.py:139-154. -/
def indirectObject (cfg : Cfg) (inp : Bytes) : PRes (Nat × Nat × Obj) :=
  match objHeader inp with
  | .error e => .error e
  | .ok ((num, gen), r) =>
    match parseObject cfg r with
    | .error e => .error e
    | .ok (val, r1) =>
      match objTail val r1 with
      | .error e => .error e
      | .ok r2 => if isValue val then .ok ((num, gen, val), r2) else .error .assertion

/-- `while prev_xref_offset: self.reset(prev_xref_offset)`, document.py:179-181: the offset of the previous
section, `none` = no further section. A negative number would be read from the end of the file; the
model treats it like a value which is no number (TypeError). -/
def prevOffset (o : Option Obj) : Res (Option Nat) :=
  match o with
  | none => .ok none
  | some v =>
    if truthy v then
      match v with
      | .int n => if n < 0 then .error .typeError else .ok (some n.toNat)
      | .bool _ => .ok (some 1)
      | _ => .error .typeError
    else .ok none

/-- One section of a file: its entries, its trailer dictionary, and the offset of the previous section. -/
abbrev Section := XRef × List (Bytes × Obj) × Option Nat

/-- One section: table and trailer, document.py:175-179 and 182-186. -/
def tableSection (cfg : Cfg) (file : Bytes) (off : Nat) : Res Section :=
  match directXref (file.drop off) with
  | .error e => .error e
  | .ok (x, r) =>
    match skipSC false r with
    | .error e => .error e
    | .ok r1 =>
      match trailerP cfg r1 with
      | .error e => .error e
      | .ok (d, _) =>
        match prevOffset (dictGet d b!"Prev") with
        | .error e => .error e
        | .ok p => .ok (x, d, p)

/-- The configuration while the file is being opened: an indirect `Length` needs `self.trailer.xrefs`,
but `self.trailer` is still the method: AttributeError (document.py:420, 458). -/
def openCfg : Cfg := { refs := true, len := some (fun _ _ => .error .attributeError) }

/-- `last_offset = obj.val.get("Prev")`, `while last_offset is not None`, document.py:195-206: unlike for
tables, an offset 0 is followed. -/
def prevStreamOffset (o : Option Obj) : Res (Option Nat) :=
  match o with
  | none => .ok none
  | some .null => .ok none
  | some (.int n) => if n < 0 then .error .typeError else .ok (some n.toNat)
  | some (.bool b) => .ok (some b.toNat)
  | some _ => .error .typeError

/-- One cross-reference stream, document.py:196-206. `filtered` is `Stream.filtered`. -/
def streamSection (filtered : List (Bytes × Obj) → Bytes → Res Bytes) (file : Bytes) (off : Nat) : Res Section :=
  match indirectObject openCfg (file.drop off) with
  | .error e => .error e
  | .ok ((_, _, .stream d raw), _) =>
    match dictGet d b!"Type" with
    | none => .error .keyError
    | some t =>
      if isText t b!"XRef" then
        match filtered d raw with
        | .error e => .error e
        | .ok data =>
          match xrefFromStream d data with
          | .error e => .error e
          | .ok x =>
            match prevStreamOffset (dictGet d b!"Prev") with
            | .error e => .error e
            | .ok p => .ok (x, d, p)
      else .error .parser
  | .ok _ => .error .parser

/-- The chain of sections, document.py:175-188 and 191-207: the sections newest first and the trailer
dictionary of the first. `fuel` bounds the number of sections. -/
def chain (sec : Nat → Res Section) : Nat → Nat → Res (List XRef × List (Bytes × Obj))
  | 0, _ => .error .diverges
  | fuel + 1, off =>
    match sec off with
    | .error e => .error e
    | .ok (x, d, none) => .ok ([x], d)
    | .ok (x, d, some p) =>
      match chain sec fuel p with
      | .error e => .error e
      | .ok (xs, _) => .ok (x :: xs, d)

/-- The kind of the newest section decides how all of them are read, document.py:173: a table starts with
`x`. -/
def sections (filtered : List (Bytes × Obj) → Bytes → Res Bytes) (file : Bytes) (off : Nat) : Nat → Res Section :=
  if (file.drop off).head? = some 120 then tableSection openCfg file else streamSection filtered file

/-- `pdf_trailer`, document.py:171-208: the sections newest first and the dictionary of the newest. -/
def pdfTrailer (filtered : List (Bytes × Obj) → Bytes → Res Bytes) (clamps : Bool) (fuel : Nat) (file : Bytes) :
    Res (List XRef × List (Bytes × Obj)) :=
  match xrefOffset clamps file with
  | .error e => .error e
  | .ok off => chain (sections filtered file off) fuel off

end PdfReader
