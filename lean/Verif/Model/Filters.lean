/-
  Stream filters: pdfreader/filters/*.py and pdfreader/types/native.py:38-60, 98-104.
-/
import Verif.Model.Basic

namespace PdfReader

/-! ### ASCIIHexDecode -/

/-- CPython `bytes.fromhex` on a two-character string (the only way asciihex.py:34,40 calls it).
White space recognised by `fromhex` and not removed before is VT (11): two VTs give `b''`,
one VT and one other character leave a single digit, which is an error. `none` = ValueError. -/
def fromHex2 (a b : Byte) : Option Bytes :=
  if a == 11 && b == 11 then some []
  else
    match hexVal? a, hexVal? b with
    | some x, some y => some [UInt8.ofNat (16 * x + y)]
    | _, _ => none

/-- Loop of pdfreader/filters/asciihex.py:28-46 (`decode`). `buf` is the one pending character
(`buffer` holds 0 or 1 bytes at the head of each iteration); a `ValueError` stops the loop and
keeps `res` (lines 43-45), modelled by returning what was produced so far. -/
def ahxLoop : Option Byte → Bytes → Bytes
  | none, [] => []
  | some c, [] => (fromHex2 c 48).getD []
  | buf, c :: rest =>
    if isWs c then ahxLoop buf rest
    else if c == 62 then
      match buf with
      | none => []
      | some d => (fromHex2 d 48).getD []
    else
      match buf with
      | none => ahxLoop (some c) rest
      | some d =>
        match fromHex2 d c with
        | some bs => bs ++ ahxLoop none rest
        | none => []

/-- pdfreader/filters/asciihex.py:10-46 `decode`. -/
def asciiHexDecode (data : Bytes) : Bytes := ahxLoop none data

/-! ### ASCII85Decode -/

/-- Five base-85 digits to an integer: CPython base64.py `a85decode`, inner loop. -/
def a85Acc (cs : Bytes) : Nat := cs.foldl (fun acc x => 85 * acc + (x.toNat - 33)) 0

/-- `struct.pack('!I', n)` for `n < 2^32`. -/
def packBE32 (n : Nat) : Bytes :=
  [UInt8.ofNat (n / 16777216), UInt8.ofNat (n / 65536), UInt8.ofNat (n / 256), UInt8.ofNat n]

/-- CPython base64.py `a85decode`, the character loop, with `curr` pending digits;
returns the decoded bytes and the final `curr`. `none` = ValueError. -/
def a85Loop : Bytes → Bytes → Option (Bytes × Bytes)
  | curr, [] => some ([], curr)
  | curr, x :: rest =>
    if 33 ≤ x.toNat ∧ x.toNat ≤ 117 then
      let curr' := curr ++ [x]
      if curr'.length = 5 then
        let acc := a85Acc curr'
        if acc < 4294967296 then
          (a85Loop [] rest).map (fun r => (packBE32 acc ++ r.1, r.2))
        else none
      else a85Loop curr' rest
    else if x == 122 then
      if curr = [] then (a85Loop [] rest).map (fun r => ([0, 0, 0, 0] ++ r.1, r.2))
      else none
    else if x == 32 || x == 9 || x == 10 || x == 13 || x == 11 then a85Loop curr rest
    else none

/-- CPython base64.py `a85decode(b)`: four `u` are appended, then `4 - len(curr)` padding bytes
are cut from the end. -/
def a85decode (b : Bytes) : Option Bytes :=
  match a85Loop [] (b ++ [117, 117, 117, 117]) with
  | none => none
  | some (res, curr) => some (res.take (res.length - (4 - curr.length)))

/-- pdfreader/filters/ascii85.py:11-33 `decode`: white space removed, EOD `~>` required. -/
def ascii85Decode (data : Bytes) : Bytes :=
  let d := data.filter (fun c => !isWs c)
  if [126, 62].isSuffixOf d then (a85decode (d.take (d.length - 2))).getD []
  else []

/-! ### RunLengthDecode -/

/-- `state` of pdfreader/filters/runlength.py:22-45 with the variables alive in it. -/
inductive RLState where
  | needLength
  | needOne (length : Byte)
  | needMany (length : Byte) (buffer : Bytes)
  | done

/-- Loop of pdfreader/filters/runlength.py:25-43; returns final state and `res`. -/
def rlLoop : RLState → Bytes → RLState × Bytes
  | st, [] => (st, [])
  | .done, _ :: _ => (.done, [])
  | .needLength, c :: rest =>
    if c == 128 then (.done, [])
    else if c.toNat ≥ 129 then rlLoop (.needOne c) rest
    else rlLoop (.needMany c []) rest
  | .needOne l, c :: rest =>
    let r := rlLoop .needLength rest
    (r.1, List.replicate (257 - l.toNat) c ++ r.2)
  | .needMany l buf, c :: rest =>
    let buf' := buf ++ [c]
    if buf'.length = l.toNat + 1 then
      let r := rlLoop .needLength rest
      (r.1, buf' ++ r.2)
    else rlLoop (.needMany l buf') rest

/-- pdfreader/filters/runlength.py:8-51 `decode`. -/
def runLengthDecode (data : Bytes) : Bytes :=
  match rlLoop .needLength data with
  | (.done, res) => res
  | _ => []

/-! ### Predictors -/

/-- Rows of `row_size` bytes, each without its first byte:
pdfreader/filters/predictors.py:23-30 (`fuel` ≥ number of rows; `data.length` is enough). -/
def stripRows (rowSize : Nat) : Nat → Bytes → Bytes
  | 0, _ => []
  | _ + 1, [] => []
  | fuel + 1, d => (d.take rowSize).drop 1 ++ stripRows rowSize fuel (d.drop rowSize)

/-- pdfreader/filters/predictors.py:4-33 `_remove_predictors`. `predictor`, `columns` are the
integers found in the parameters (other Python types are not modelled). -/
def removePredictors (data : Bytes) (predictor columns : Option Int) : Res Bytes :=
  let p := predictor.getD 1
  if p = 1 then .ok data
  else if p = 2 then .error .valueError
  else if 10 ≤ p ∧ p ≤ 15 then
    match columns with
    | none => .error .typeError                      -- None + 1
    | some c =>
      if c + 1 = 0 then .error .valueError            -- range() arg 3 must not be zero
      else if c + 1 < 0 then .ok []                   -- range with a negative step is empty
      else .ok (stripRows (c + 1).toNat data.length data)
  else .error .valueError

/-- `DecodeParms` as the filters see it after `params or {}` (filters/__init__.py:14):
`dict` with the two predictor entries, or a non-empty list (which has no `.get`). -/
inductive Params where
  | dict (predictor columns : Option Int)
  | list
  deriving DecidableEq, Repr

/-- `_remove_predictors(data, params.get("Predictor"), params.get("Columns"))`. -/
def removePredictorsP (data : Bytes) : Params → Res Bytes
  | .dict p c => removePredictors data p c
  | .list => .error .attributeError

/-- pdfreader/filters/flate.py:10-28 `decode`; `inflate` is zlib.decompress (`none` = zlib.error).
Only `zlib.error` is caught. -/
def flateDecode (inflate : Bytes → Option Bytes) (data : Bytes) (ps : Params) : Res Bytes :=
  match inflate data with
  | none => .ok []
  | some d => removePredictorsP d ps

/-! ### LZWDecode -/

/-- `intfrombits`, pdfreader/filters/lzw.py:265-282 (most significant bit first). -/
def intFromBits (bits : List Bool) : Nat := bits.foldl (fun a b => 2 * a + b.toNat) 0

/-- `bytestobits` for one byte, pdfreader/filters/lzw.py:285-298. -/
def byteToBits (c : Byte) : List Bool :=
  [c.toNat.testBit 7, c.toNat.testBit 6, c.toNat.testBit 5, c.toNat.testBit 4,
   c.toNat.testBit 3, c.toNat.testBit 2, c.toNat.testBit 1, c.toNat.testBit 0]

/-- `bytestobits`, pdfreader/filters/lzw.py:285-298. -/
def bytesToBits (bs : Bytes) : List Bool := bs.flatMap byteToBits

/-- Loop variables of `BitUnpacker.unpack`, pdfreader/filters/lzw.py:91-151. -/
structure Unpack where
  bits : List Bool := []
  offset : Nat := 0
  ignore : Nat := 0
  codesize : Nat := 258
  width : Nat := 9
  deriving DecidableEq, Repr

/-- `while codesize >= 2 ** pointwidth: pointwidth += 1` (lzw.py:142-145); `codesize` grows by one
each time so at most one step is ever taken, modelled with one step (`codesize < 2^(w+1)` always
holds before it: theorem `unpack_width_inv`). -/
def bumpWidth (codesize w : Nat) : Nat := if codesize ≥ 2 ^ w then w + 1 else w

/-- One bit through `BitUnpacker.unpack` (lzw.py:122-151): new state and the code point, if any. -/
def unpackStep (s : Unpack) (b : Bool) : Unpack × Option Nat :=
  let offset := (s.offset + 1) % 8
  if s.ignore > 0 then ({ s with offset := offset, ignore := s.ignore - 1 }, none)
  else
    let bits := s.bits ++ [b]
    if bits.length = s.width then
      let cp := intFromBits bits
      let cs := s.codesize + 1
      let ign := if cp = 257 then (8 - offset) % 8 else s.ignore
      if cp = 256 ∨ cp = 257 then
        ({ bits := [], offset := offset, ignore := ign, codesize := 258, width := 9 }, some cp)
      else
        ({ bits := [], offset := offset, ignore := ign, codesize := cs, width := bumpWidth cs s.width }, some cp)
    else ({ s with offset := offset, bits := bits }, none)

/-- `BitUnpacker.unpack` on a bit sequence. -/
def unpackBits : Unpack → List Bool → List Nat
  | _, [] => []
  | s, b :: rest =>
    match unpackStep s b with
    | (s', some cp) => cp :: unpackBits s' rest
    | (s', none) => unpackBits s' rest

/-- State of `Decoder` (lzw.py:152-247): the strings with codes ≥ 258 in order, and `_prefix`. The
code book is always the 256 single bytes, the two control codes, and consecutive codes from 258
(`len(self._codepoints)`), so it is represented by the list of the latter. -/
structure LzwDec where
  extra : List Bytes := []
  pfx : Option Bytes := none
  deriving DecidableEq, Repr

/-- `self._codepoints[codepoint]` for non-control codes. -/
def LzwDec.lookup (d : LzwDec) (cp : Nat) : Option Bytes :=
  if cp < 256 then some [UInt8.ofNat cp] else d.extra[cp - 258]?

/-- `Decoder._decode_codepoint`, lzw.py:202-240. The unknown-code branch keeps the code's
`ret[0:1]` of the still empty `ret`. -/
def lzwStep (d : LzwDec) (cp : Nat) : Res (LzwDec × Bytes) :=
  if cp = 256 then .ok ({}, [])
  else if cp = 257 then .error .valueError
  else
    match d.lookup cp with
    | some ret =>
      let extra := match d.pfx with
        | some p => d.extra ++ [p ++ ret.take 1]
        | none => d.extra
      .ok ({ extra := extra, pfx := some ret }, ret)
    | none =>
      match d.pfx with
      | none => .error .typeError                    -- None + b''
      | some p => .ok ({ extra := d.extra ++ [p], pfx := some p }, p)

/-- `Decoder.decode`, lzw.py:177-200. -/
def lzwCodes : LzwDec → List Nat → Res Bytes
  | _, [] => .ok []
  | d, cp :: rest =>
    match lzwStep d cp with
    | .error e => .error e
    | .ok (d', out) =>
      match lzwCodes d' rest with
      | .error e => .error e
      | .ok r => .ok (out ++ r)

/-- `decompress`, lzw.py:37-46. -/
def lzwDecompress (data : Bytes) : Res Bytes := lzwCodes {} (unpackBits {} (bytesToBits data))

/-- `lzw.decode`, lzw.py:21-34: every ValueError (also of the predictor) gives `b''`. -/
def lzwDecode (data : Bytes) (ps : Params) : Res Bytes :=
  match (match lzwDecompress data with
         | .error e => Except.error e
         | .ok d => removePredictorsP d ps) with
  | .error .valueError => .ok []
  | r => r

/-! ### Dispatch -/

/-- The decoders which are parameters of the model: zlib, CCITT fax, DCT (PIL). -/
structure Ext where
  inflate : Bytes → Option Bytes
  ccitt : Bytes → Params → Res Bytes
  dct : Bytes → Res Bytes

/-- `decoders_by_name` and `apply_filter`, pdfreader/filters/__init__.py:3-14. -/
def applyFilter (x : Ext) (name : Bytes) (data : Bytes) (ps : Params) : Res Bytes :=
  if name = b!"ASCII85Decode" ∨ name = b!"A85" then .ok (ascii85Decode data)
  else if name = b!"ASCIIHexDecode" ∨ name = b!"AHx" then .ok (asciiHexDecode data)
  else if name = b!"FlateDecode" ∨ name = b!"Fl" then flateDecode x.inflate data ps
  else if name = b!"LZWDecode" ∨ name = b!"LZW" then lzwDecode data ps
  else if name = b!"RunLengthDecode" ∨ name = b!"RL" then .ok (runLengthDecode data)
  else if name = b!"CCITTFaxDecode" ∨ name = b!"CCF" then x.ccitt data ps
  else if name = b!"DCTDecode" ∨ name = b!"DCT" then x.dct data
  else if name = b!"JBIG2Decode" then .ok data        -- jbig2.py:7-9 returns the data unchanged
  else if name = b!"JPXDecode" then .ok data          -- jpx.py:7-9 returns the data unchanged
  else if name = b!"Crypt" then .error .notImplemented -- crypt.py:4
  else .error .notImplemented                          -- unknown name, filters/__init__.py:12-13

/-- The `Filter` entry of a stream. `falsy` = None, missing, empty array/name/dict, 0, False … -/
inductive FilterEntry where
  | falsy
  | name (n : Bytes)
  | array (ns : List Bytes)
  | other

/-- Loop of `apply_filter_multi`, pdfreader/types/native.py:50-58. -/
def applyFilters (x : Ext) (ps : Params) : List Bytes → Bytes → Res Bytes
  | [], data => .ok data
  | n :: ns, data =>
    match applyFilter x n data ps with
    | .error e => .error e
    | .ok d => applyFilters x ps ns d

/-- `apply_filter_multi`, pdfreader/types/native.py:38-60 (`Stream.filtered`, lines 98-104). -/
def applyFilterMulti (x : Ext) (f : FilterEntry) (data : Bytes) (ps : Params) : Res Bytes :=
  match f with
  | .falsy => .ok data
  | .name n => applyFilters x ps [n] data
  | .array ns => applyFilters x ps ns data
  | .other => .error .typeError

end PdfReader
