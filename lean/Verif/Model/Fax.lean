/-
  The CCITT fax decoder, pdfreader/filters/ccittfax.py: Group 4 (K = -1).

  `1` is white. Simplifications: `_accept` and `_state` are one (each handler has tables of its own); the line number `_y`, which nothing
  reads, is left out; Columns is a natural number or missing.
-/
import Verif.Model.FaxTables

namespace PdfReader

/-- A tree of BitParser: `[zero, one]`, or what `_parse_bit` hands on, which is `None` for unknown codes. -/
inductive FaxTree (α : Type) where
  | leaf (v : Option α)
  | node (zero one : FaxTree α)

/-- `[None, None]` -/
def FaxTree.empty {α : Type} : FaxTree α := .node (.leaf none) (.leaf none)

/-- `BitParser.add`, ccittfax.py:29-41. Simplification: a code which continues another one is ignored (in Python a TypeError). -/
def FaxTree.add {α : Type} (t : FaxTree α) (v : α) : List Bool → FaxTree α
  | [] => t
  | b :: bits =>
    match t with
    | .leaf (some w) => .leaf (some w)
    | .leaf none =>
      match bits with
      | [] => if b then .node (.leaf none) (.leaf (some v)) else .node (.leaf (some v)) (.leaf none)
      | _ => if b then .node (.leaf none) (FaxTree.add (.leaf none) v bits) else .node (FaxTree.add (.leaf none) v bits) (.leaf none)
    | .node zero one =>
      match bits with
      | [] => if b then .node zero (.leaf (some v)) else .node (.leaf (some v)) one
      | _ => if b then .node zero (FaxTree.add one v bits) else .node (FaxTree.add zero v bits) one

/-- All calls of `add` for a table. -/
def FaxTree.ofTable {α : Type} (table : List (α × List Bool)) : FaxTree α := table.foldl (fun t e => t.add e.1 e.2) .empty

/-- MODE as a tree, ccittfax.py:64-82. -/
def modeTree : FaxTree FaxMode := .ofTable modeTable
/-- WHITE as a tree, ccittfax.py:84-188. -/
def whiteTree : FaxTree Nat := .ofTable whiteTable
/-- BLACK as a tree, ccittfax.py:190-294. -/
def blackTree : FaxTree Nat := .ofTable blackTable
/-- UNCOMPRESSED as a tree, ccittfax.py:296-310. -/
def uncompressedTree : FaxTree (Option Bool × List Bool) := .ofTable uncompressedTable

/-- How reading a bit ends: normally, or with one of the exceptions ByteSkip, EOFB, InvalidData and IndexError. -/
inductive FaxSignal where
  | go | skip | eofb | invalid | index
  deriving DecidableEq

/-- `_accept` and `_state`. -/
inductive FaxWait where
  | mode (t : FaxTree FaxMode)
  | horiz1 (t : FaxTree Nat)
  | horiz2 (t : FaxTree Nat)
  | uncompressed (t : FaxTree (Option Bool × List Bool))

/-- CCITTFaxDecoder. -/
structure Fax where
  width : Nat
  bytealign : Bool
  reversed : Bool
  wait : FaxWait := .mode modeTree
  refline : List Bool
  curline : List Bool
  curpos : Int := -1
  color : Bool := true
  n1 : Nat := 0
  n2 : Nat := 0
  buf : Bytes := []

/-- `CCITTFaxDecoder.__init__`, ccittfax.py:321-325, 415-430, 524-527. -/
def Fax.init (width : Nat) (bytealign reversed : Bool) : Fax :=
  { width := width, bytealign := bytealign, reversed := reversed, refline := List.replicate width true, curline := List.replicate width true }

/-- A byte of `output_line`. -/
def packByte (bits : List Bool) : Byte :=
  UInt8.ofNat ((if bits.getD 0 false then 128 else 0) + (if bits.getD 1 false then 64 else 0) + (if bits.getD 2 false then 32 else 0) +
    (if bits.getD 3 false then 16 else 0) + (if bits.getD 4 false then 8 else 0) + (if bits.getD 5 false then 4 else 0) +
    (if bits.getD 6 false then 2 else 0) + (if bits.getD 7 false then 1 else 0))

/-- `output_line`, ccittfax.py:532-539, without the test of `reversed`. `fuel` is the number of bytes. -/
def packBits : Nat → List Bool → Bytes
  | 0, _ => []
  | n + 1, bits => packByte (bits.take 8) :: packBits n (bits.drop 8)

/-- `output_line`, ccittfax.py:532-539. -/
def outputLine (reversed : Bool) (bits : List Bool) : Bytes := packBits ((bits.length + 7) / 8) (if reversed then bits.map (!·) else bits)

/-- `_flush_line` with `_reset_line`, ccittfax.py:426-438. -/
def Fax.flush (s : Fax) : Fax × FaxSignal :=
  if (s.width : Int) ≤ s.curpos then
    ({ s with buf := s.buf ++ outputLine s.reversed s.curline, refline := s.curline, curline := List.replicate s.width true, curpos := -1, color := true },
      if s.bytealign then .skip else .go)
  else (s, .go)

/-- The search of `_do_vertical` and `_do_pass` for the next place where the colour changes from `c`, ccittfax.py:443-453, 469-489; the fuel
is the number of places left, `none` is an IndexError. -/
def seekLoop (ref : List Bool) (c : Bool) : Nat → Nat → Option Nat
  | 0, _ => none
  | fuel + 1, x =>
    if x = 0 then
      if c then
        match ref.head? with
        | none => none
        | some p => if p ≠ c then some 0 else seekLoop ref c fuel 1
      else seekLoop ref c fuel 1
    else if x = ref.length then some x
    else if ref[x - 1]? = some c ∧ ref[x]? ≠ some c then some x
    else seekLoop ref c fuel (x + 1)

/-- The search from `x` on. -/
def seekChange (ref : List Bool) (c : Bool) (x : Nat) : Option Nat := seekLoop ref c (ref.length + 1 - x) x

/-- `line[x] = c`, as in ccittfax.py:459, 462, 491, 514; negative indices count from the end. `none` is an IndexError. -/
def putPixel (line : List Bool) (x : Int) (c : Bool) : Option (List Bool) :=
  if 0 ≤ x then if x < line.length then some (line.set x.toNat c) else none
  else if -(line.length : Int) ≤ x then some (line.set (line.length + x).toNat c) else none

/-- `for x in range(x, x + n): line[x] = c`, ccittfax.py:458-462, 490-491. -/
def fillPixels (line : List Bool) (x : Int) (c : Bool) : Nat → Option (List Bool)
  | 0 => some line
  | n + 1 =>
    match putPixel line x c with
    | none => none
    | some l => fillPixels l (x + 1) c n

/-- `_do_vertical`, ccittfax.py:440-464. -/
def Fax.vertical (s : Fax) (dx : Int) : Fax × FaxSignal :=
  match seekChange s.refline s.color (s.curpos + 1).toNat with
  | none => (s, .index)
  | some b1 =>
    let x0 : Int := max 0 s.curpos
    let x1 : Int := max 0 (min s.width (b1 + dx))
    match (if x1 < x0 then fillPixels s.curline x1 s.color (x0 - x1).toNat else fillPixels s.curline x0 s.color (x1 - x0).toNat) with
    | none => (s, .index)
    | some l => ({ s with curline := l, curpos := x1, color := !s.color }, .go)

/-- `_do_pass`, ccittfax.py:466-492. -/
def Fax.passMode (s : Fax) : Fax × FaxSignal :=
  match seekChange s.refline s.color (s.curpos + 1).toNat with
  | none => (s, .index)
  | some b1 =>
    match seekChange s.refline (!s.color) b1 with
    | none => (s, .index)
    | some b2 =>
      match fillPixels s.curline s.curpos s.color ((b2 : Int) - s.curpos).toNat with
      | none => (s, .index)
      | some l => ({ s with curline := l, curpos := b2 }, .go)

/-- A loop of `_do_horizontal`, ccittfax.py:499-508: it stops at the end of the line. -/
def runPixels (line : List Bool) (x : Nat) (c : Bool) : Nat → List Bool × Nat
  | 0 => (line, x)
  | n + 1 => if line.length ≤ x then (line, x) else runPixels (line.set x c) (x + 1) c n

/-- `_do_horizontal`, ccittfax.py:494-509. -/
def Fax.horizontal (s : Fax) (n1 n2 : Nat) : Fax :=
  let r1 := runPixels s.curline (max 0 s.curpos).toNat s.color n1
  let r2 := runPixels r1.1 r1.2 (!s.color) n2
  { s with curline := r2.1, curpos := r2.2 }

/-- `_do_uncompressed`, ccittfax.py:511-516. -/
def Fax.raw (s : Fax) : List Bool → Fax × FaxSignal
  | [] => (s, .go)
  | c :: cs =>
    match putPixel s.curline s.curpos c with
    | none => (s, .index)
    | some l =>
      match Fax.flush { s with curline := l, curpos := s.curpos + 1 } with
      | (s, .go) => Fax.raw s cs
      | r => r

/-- The table of runs of a colour, ccittfax.py:346-349. -/
def runTree (color : Bool) : FaxTree Nat := if color then whiteTree else blackTree

/-- `_do_…`, then `_flush_line`, then the next mode, ccittfax.py:340-342. -/
def Fax.finish (r : Fax × FaxSignal) : Fax × FaxSignal :=
  match r with
  | (s, .go) =>
    match s.flush with
    | (s, e) => ({ s with wait := .mode modeTree }, e)
  | r => r

/-- `_parse_mode`, ccittfax.py:338-360. -/
def Fax.onMode (s : Fax) (m : Option FaxMode) : Fax × FaxSignal :=
  match m with
  | some .pass => Fax.finish s.passMode
  | some .horizontal => ({ s with n1 := 0, wait := .horiz1 (runTree s.color) }, .go)
  | some .uncompressed => ({ s with wait := .uncompressed uncompressedTree }, .go)
  | some .eofb => (s, .eofb)
  | some (.vertical dx) => Fax.finish (s.vertical dx)
  | some .extension => (s, .invalid)
  | none => (s, .invalid)

/-- `_parse_horiz1`, ccittfax.py:362-373. -/
def Fax.onHoriz1 (s : Fax) (n : Option Nat) : Fax × FaxSignal :=
  match n with
  | none => (s, .invalid)
  | some n =>
    if n < 64 then ({ s with n1 := s.n1 + n, n2 := 0, color := !s.color, wait := .horiz2 (runTree (!s.color)) }, .go)
    else ({ s with n1 := s.n1 + n, wait := .horiz1 (runTree s.color) }, .go)

/-- `_parse_horiz2`, ccittfax.py:375-388. -/
def Fax.onHoriz2 (s : Fax) (n : Option Nat) : Fax × FaxSignal :=
  match n with
  | none => (s, .invalid)
  | some n =>
    if n < 64 then Fax.finish (Fax.horizontal { s with n2 := s.n2 + n, color := !s.color } s.n1 (s.n2 + n), .go)
    else ({ s with n2 := s.n2 + n, wait := .horiz2 (runTree s.color) }, .go)

/-- `_parse_uncompressed`, ccittfax.py:390-400. -/
def Fax.onUncompressed (s : Fax) (v : Option (Option Bool × List Bool)) : Fax × FaxSignal :=
  match v with
  | none => (s, .invalid)
  | some (some t, bits) =>
    match Fax.raw { s with color := t } bits with
    | (s, e) => ({ s with wait := .mode modeTree }, e)
  | some (none, bits) =>
    match s.raw bits with
    | (s, e) => ({ s with wait := .uncompressed uncompressedTree }, e)

/-- The branch of a tree, ccittfax.py:49-52. -/
def FaxTree.branch {α : Type} (t : FaxTree α) (b : Bool) : FaxTree α :=
  match t with
  | .leaf v => .leaf v
  | .node zero one => if b then one else zero

/-- `_parse_bit`, ccittfax.py:48-57. -/
def Fax.bit (s : Fax) (b : Bool) : Fax × FaxSignal :=
  match s.wait with
  | .mode t => match t.branch b with | .leaf v => s.onMode v | t => ({ s with wait := .mode t }, .go)
  | .horiz1 t => match t.branch b with | .leaf v => s.onHoriz1 v | t => ({ s with wait := .horiz1 t }, .go)
  | .horiz2 t => match t.branch b with | .leaf v => s.onHoriz2 v | t => ({ s with wait := .horiz2 t }, .go)
  | .uncompressed t => match t.branch b with | .leaf v => s.onUncompressed v | t => ({ s with wait := .uncompressed t }, .go)

/-- The inner loop of `feedbytes`, ccittfax.py:330-331. -/
def Fax.bitsOn (s : Fax) : List Bool → Fax × FaxSignal
  | [] => (s, .go)
  | b :: bs =>
    match s.bit b with
    | (s, .go) => Fax.bitsOn s bs
    | r => r

/-- `[b & m for m in (128, 64, 32, 16, 8, 4, 2, 1)]`, ccittfax.py:330-331. -/
def byteMasks (b : Byte) : List Bool := [128, 64, 32, 16, 8, 4, 2, 1].map fun m => b &&& m != 0

/-- `feedbytes`, ccittfax.py:327-336. -/
def Fax.feed (s : Fax) : Bytes → Fax × FaxSignal
  | [] => (s, .go)
  | b :: bs =>
    match s.bitsOn (byteMasks b) with
    | (s, .go) => Fax.feed s bs
    | (s, .skip) => Fax.feed { s with wait := .mode modeTree } bs
    | (s, .eofb) => (s, .go)
    | r => r

/-- The exceptions of the decoder. -/
inductive FaxExc where
  | invalidData | indexError | typeError
  deriving DecidableEq

/-- `ccittfaxdecode`, ccittfax.py:542-553. -/
def faxDecode (data : Bytes) (k : Option Int) (columns : Option Nat) (bytealign blackIs1 : Bool) : Except FaxExc Bytes :=
  if k = some (-1) then
    match columns with
    | none => .error .typeError
    | some w =>
      match Fax.feed (Fax.init w bytealign blackIs1) data with
      | (_, .invalid) => .error .invalidData
      | (_, .index) => .error .indexError
      | (s, _) => .ok s.buf
  else .ok data

end PdfReader
