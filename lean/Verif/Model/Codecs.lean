/-
  Text encodings: pdfreader/codecs/codec.py, differences.py, __init__.py and the rest of decoder.py.
-/
import Verif.Model.GlyphTables
import Verif.Model.EncodingTables
import Verif.Model.CMap
import Verif.Model.Object

namespace PdfReader

/-! ### Glyph names -/

/-- White space which `int()` strips (ASCII). -/
def isPySpace (c : Byte) : Bool := (9 ≤ c.toNat && c.toNat ≤ 13) || (28 ≤ c.toNat && c.toNat ≤ 32)

/-- Digits of `int(s, 16)` after sign and prefix; `none` is the ValueError. -/
def pyHexDigits (d : Bytes) : Option Nat :=
  match hexNat d with
  | .ok n => some n
  | .error _ => none

/-- `int(s, 16)`, codec.py:80, 87: blanks around, a sign and `0x` are accepted. Simplification: no underscores (names are split at them
before) and no digits outside of ASCII. -/
def pyHexInt (s : Bytes) : Option Int :=
  let s := ((s.dropWhile isPySpace).reverse.dropWhile isPySpace).reverse
  let neg := s.head? = some 45
  let s := if s.head? = some 45 ∨ s.head? = some 43 then s.tail else s
  let s := if s.take 2 = b!"0x" ∨ s.take 2 = b!"0X" then s.drop 2 else s
  match pyHexDigits s with
  | some n => some (if neg then - (n : Int) else n)
  | none => none

/-- `chr(int(s, 16))`; `none` is a ValueError. -/
def chrHex (s : Bytes) : Option Nat :=
  match pyHexInt s with
  | some n => if 0 ≤ n ∧ n ≤ 0x10FFFF then some n.toNat else none
  | none => none

/-- `[chr(int(glyph[i:i+4], 16)) for i in range(3, len(glyph), 4)]`, codec.py:80, from position 3 on. -/
def uniChars : Bytes → Option Text
  | [] => some []
  | a :: b :: c :: d :: r =>
    match chrHex [a, b, c, d], uniChars r with
    | some x, some xs => some (x :: xs)
    | _, _ => none
  | _ => none

/-- One component of a glyph name, codec.py:73-91. -/
def glyphVal (zapf : Bool) (g : Bytes) : Text :=
  match (if zapf then zapfTree.get (nameKey g) else none) with
  | some v => v
  | none =>
    match aglTree.get (nameKey g) with
    | some v => v
    | none =>
      if g.take 3 = b!"uni" ∧ (g.length - 3) % 4 = 0 then (uniChars (g.drop 3)).getD []
      else if g.take 1 = b!"u" ∧ 5 ≤ g.length ∧ g.length ≤ 7 then (match chrHex (g.drop 1) with | some c => [c] | none => [])
      else []

/-- `s.split("_")` -/
def splitUnderscore : Bytes → List Bytes
  | [] => [[]]
  | c :: r =>
    if c = 95 then [] :: splitUnderscore r
    else
      match splitUnderscore r with
      | p :: ps => (c :: p) :: ps
      | [] => [[c]]

/-- `glyph_name_to_string` without its cache, codec.py:70-92. -/
def glyphText (zapf : Bool) (name : Bytes) : Text :=
  (splitUnderscore (name.takeWhile (· ≠ 46))).foldl (fun res g => res ++ glyphVal zapf g) []

/-! ### Codecs -/

/-- A codec class: codec.py:14-19. `cls` is the identity of the class, by which `_cache` is kept. -/
structure Codec where
  cls : Nat
  zapf : Bool
  enc : List (Nat × Byte)
  dec : List (Int × Obj)

/-- `_cache`, codec.py:11. -/
abbrev GlyphCache := List ((Nat × Bytes) × Text)

/-- Lookup in an association list. -/
def assoc {κ ν : Type} [DecidableEq κ] (k : κ) : List (κ × ν) → Option ν
  | [] => none
  | e :: es => if e.1 = k then some e.2 else assoc k es

/-- `glyph_name_to_string`, codec.py:67-94, for names (and other `str`s). Byte strings, None, numbers and containers raise. -/
def glyphName (c : Codec) (o : Obj) (cache : GlyphCache) : Res Text × GlyphCache :=
  let str (n : Bytes) :=
    match assoc (c.cls, n) cache with
    | some t => (.ok t, cache)
    | none => (.ok (glyphText c.zapf n), ((c.cls, n), glyphText c.zapf n) :: cache)
  match o with
  | .name n => str n
  | .hex n => str n
  | .token n => str n
  | .null => (.error .attributeError, cache)
  | .real _ _ => (.error .attributeError, cache)
  | _ => (.error .typeError, cache)

/-- Loop of `Codec.decode`, codec.py:102-111. -/
def codecLoop (c : Codec) : Bytes → Text → GlyphCache → Res Text × GlyphCache
  | [], res, cache => (.ok res, cache)
  | x :: s, res, cache =>
    match assoc (x.toNat : Int) c.dec with
    | some o =>
      match glyphName c o cache with
      | (.error e, cache) => (.error e, cache)
      | (.ok g, cache) => codecLoop c s (res ++ g) cache
    | none => codecLoop c s (res ++ [x.toNat]) cache

/-- `Codec.decode(binary)[0]`, codec.py:100-112. -/
def codecDecode (c : Codec) (s : Bytes) (cache : GlyphCache) : Res Text × GlyphCache := codecLoop c s [] cache

/-- `x.encode("latin1", "replace")` -/
def latin1Encode (x : Nat) : Byte := if x < 256 then UInt8.ofNat x else 63

/-- `Codec.encode(text)[0]`, codec.py:96-98. -/
def codecEncode (c : Codec) (t : Text) : Bytes := t.map (fun x => (assoc x c.enc).getD (latin1Encode x))

/-- A class with tables of names. -/
def mkCodec (cls : Nat) (enc : List (Nat × Byte)) (dec : List (Nat × Bytes)) : Codec :=
  ⟨cls, true, enc, dec.map (fun p => ((p.1 : Int), .name p.2))⟩

/-- codecs/winansi.py -/
def winAnsi : Codec := mkCodec 0 winansiEncode winansiDecode
/-- codecs/standard.py -/
def standard : Codec := mkCodec 1 standardEncode standardDecode
/-- codecs/macroman.py -/
def macRoman : Codec := mkCodec 2 macromanEncode macromanDecode
/-- codecs/pdfdoc.py -/
def pdfDoc : Codec := mkCodec 3 pdfdocEncode pdfdocDecode

/-- `base_encodings_map`, differences.py:7-8. -/
def baseCodec (n : Bytes) : Option Codec :=
  if n = b!"WinAnsiEncoding" then some winAnsi
  else if n = b!"PDFDocEncoding" then some pdfDoc
  else if n = b!"MacRomanEncoding" then some macRoman
  else if n = b!"StandardEncoding" then some standard
  else none

/-! ### Differences -/

/-- `dt[code] = item` -/
def tableSet (dt : List (Int × Obj)) (code : Int) (o : Obj) : List (Int × Obj) := (code, o) :: dt

/-- Loop over `Differences`, differences.py:56-62; `code` is unbound before the first number. -/
def diffLoop : List Obj → Option Int → List (Int × Obj) → Res (List (Int × Obj))
  | [], _, dt => .ok dt
  | .int n :: os, _, dt => diffLoop os (some n) dt
  | .bool b :: os, _, dt => diffLoop os (some (b.toNat : Int)) dt
  | o :: os, some code, dt => diffLoop os (some (code + 1)) (tableSet dt code o)
  | _ :: _, none, _ => .error .unboundLocal

/-- The base codec, differences.py:42-50: `BaseEncoding or "StandardEncoding"`, and StandardEncoding for unknown ones. Simplification:
an unhashable BaseEncoding (TypeError) is treated like an unknown one. -/
def diffBase (base : Option Obj) : Codec :=
  match base with
  | some (.name n) => (baseCodec n).getD standard
  | _ => standard

/-- `DifferencesCodec`, differences.py:14-71; `cls` is the identity of the new class. `Differences` other than an array is read as
missing (simplification: other truthy values raise). -/
def differencesCodec (cls : Nat) (d : List (Bytes × Obj)) : Res Codec :=
  let base := diffBase (dictGet d b!"BaseEncoding")
  match dictGet d b!"Differences" with
  | some (.arr os) =>
    match diffLoop os none base.dec with
    | .error e => .error e
    | .ok dt => .ok ⟨cls, true, base.enc, dt⟩
  | _ => .ok ⟨cls, true, base.enc, base.dec⟩

/-! ### Decoders -/

/-- Python's own codecs: the result of the search function of the package `encodings` for a name, as a decoder. They come before
the registered ones. -/
abbrev Builtin := Bytes → Option (Bytes → Res Text)

/-- latin1 decodes every byte to the character of the same code. -/
def latin1Decode (s : Bytes) : Res Text := .ok (s.map (·.toNat))

/-- `codecs.lookup(name).decode(s)[0]`: the search functions are asked in the order of their registration (codecs/__init__.py:7-10), and
`Codec.search` (codec.py:114-116) accepts every name. -/
def lookupDecode (builtin : Builtin) (name s : Bytes) (cache : GlyphCache) : Res Text × GlyphCache :=
  match builtin name with
  | some f => (f s, cache)
  | none => codecDecode winAnsi s cache

/-- `EncodingDecoder.decode_string`, decoder.py:164-185. `cls` is the identity given to a class made for this call. -/
def encodingDecode (builtin : Builtin) (cls : Nat) (enc : Obj) (s : Bytes) (cache : GlyphCache) : Res Text × GlyphCache :=
  match enc with
  | .name n => lookupDecode builtin n s cache
  | .dict d =>
    match differencesCodec cls d with
    | .error e => (.error e, cache)
    | .ok c => codecDecode c s cache
  | _ => (.error .typeError, cache)

/-- A font dictionary, references resolved: the text of its ToUnicode CMap, Encoding and BaseFont. -/
structure FontDict where
  toUnicode : Option Bytes
  encoding : Option Obj
  baseFont : Option Bytes

/-- `_guess_encoding_by_font_name`, decoder.py:36-49 -/
def guessEncoding (n : Option Bytes) : Option Obj :=
  match n with
  | none => none
  | some n =>
    if n ∈ [b!"Times-Roman", b!"Helvetica", b!"Courier", b!"Symbol", b!"Times-Bold", b!"Helvetica-Bold", b!"Courier-Bold", b!"Times-Italic",
      b!"Helvetica-Qblique", b!"Courier-Oblique", b!"Times-BoldItalic", b!"Helvetica-BoldOblique", b!"Courier-BoldOblique", b!"ZapfDingbats"] then
      some (.name b!"Identity-H")
    else none

/-- `_get_cmap_encoding`, decoder.py:52-69. `predefined` gives the CMaps of `predefined_cmap_names`. -/
def cmapEncoding (predefined : Bytes → Option CMap) (f : FontDict) : Res (Option CMap × Option Obj) :=
  let pre : Option CMap := match f.encoding with | some (.name n) => predefined n | _ => none
  let enc : Option Obj := if pre.isSome then none else f.encoding
  match f.toUnicode with
  | some t =>
    match cmapP t with
    | .error e => .error e
    | .ok c => .ok (some c, enc)
  | none =>
    match pre with
    | some c => .ok (some c, enc)
    | none => .ok (none, match enc with | some e => some e | none => guessEncoding f.baseFont)

/-- `bool(encoding)` -/
def truthyEnc : Obj → Bool
  | .name n => n ≠ []
  | .dict d => d ≠ []
  | .null => false
  | _ => true

/-- `CMAPDecoder._encoding_decoder`, decoder.py:106-112, on a hexadecimal string of bytes. -/
def fallbackHex (builtin : Builtin) (cls : Nat) (enc : Option Obj) (x : Bytes) : Res Text :=
  match ahxBytes x with
  | .error e => .error e
  | .ok s =>
    match enc with
    | some e => if truthyEnc e then (encodingDecode builtin cls e s []).1 else latin1Decode s
    | none => latin1Decode s
where
  /-- `bytes.fromhex`, types/native.py:38-39. -/
  ahxBytes : Bytes → Res Bytes
    | [] => .ok []
    | [_] => .error .valueError
    | a :: b :: r =>
      match hexVal? a, hexVal? b, ahxBytes r with
      | some x, some y, .ok s => .ok (UInt8.ofNat (16 * x + y) :: s)
      | _, _, _ => .error .valueError

/-- `Decoder(font).decode_string(s)`, decoder.py:188-200 with 152-185. The glyph cache starts empty; this has no influence
(C64). -/
def fontDecode (builtin : Builtin) (predefined : Bytes → Option CMap) (cls : Nat) (f : FontDict) (s : Bytes) : Res Text :=
  match cmapEncoding predefined f with
  | .error e => .error e
  | .ok (some c, enc) => cmapDecodeStr c.bf (fallbackHex builtin cls enc) s
  | .ok (none, some e) => if truthyEnc e then (encodingDecode builtin cls e s []).1 else latin1Decode s
  | .ok (none, none) => latin1Decode s

end PdfReader
