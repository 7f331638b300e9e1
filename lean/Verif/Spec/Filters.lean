/-
  Independent specification of the encodings (ISO 32000-1, 7.4), used by the theorems in
  Verif/Props/Filters.lean. Nothing here refers to the model of the code except the byte type and
  the list of white-space bytes.
-/
import Verif.Model.Basic

namespace PdfReader.Spec

/-- White space of PDF (ISO 32000-1 table 1). -/
def Blank (s : Bytes) : Prop := ∀ c ∈ s, c ∈ ([0, 9, 10, 12, 13, 32] : Bytes)

/-- `c` is a hexadecimal digit (either case) with value `v`. -/
def HexDigit (v : Nat) (c : Byte) : Prop :=
  (b!"0123456789ABCDEF")[v]? = some c ∨ (b!"0123456789abcdef")[v]? = some c

/-- `HexEnc d t`: `t` is a hexadecimal text of the bytes `d`, white space anywhere. -/
inductive HexEnc : Bytes → Bytes → Prop
  | nil (w : Bytes) : Blank w → HexEnc [] w
  | cons (b : Byte) (x y : Byte) (w₁ w₂ : Bytes) (d t : Bytes) :
      Blank w₁ → Blank w₂ → HexDigit (b.toNat / 16) x → HexDigit (b.toNat % 16) y → HexEnc d t →
      HexEnc (b :: d) (w₁ ++ x :: (w₂ ++ y :: t))

/-- Big-endian value of a byte string. -/
def beVal (bs : Bytes) : Nat := bs.foldl (fun a b => 256 * a + b.toNat) 0

/-- The five base-85 digits of a 32-bit value, as ASCII characters `!`..`u`. -/
def digits85 (v : Nat) : Bytes :=
  [v / 85 ^ 4 % 85, v / 85 ^ 3 % 85, v / 85 ^ 2 % 85, v / 85 % 85, v % 85].map
    (fun d => UInt8.ofNat (33 + d))

/-- `A85Enc d t`: `t` is a base-85 text of `d` (without EOD and white space). -/
inductive A85Enc : Bytes → Bytes → Prop
  | nil : A85Enc [] []
  | group (a b c e : Byte) (d t : Bytes) : A85Enc d t →
      A85Enc (a :: b :: c :: e :: d) (digits85 (beVal [a, b, c, e]) ++ t)
  | zero (d t : Bytes) : A85Enc d t → A85Enc (0 :: 0 :: 0 :: 0 :: d) (122 :: t)
  | last (d : Bytes) : 1 ≤ d.length → d.length ≤ 3 →
      A85Enc d ((digits85 (beVal (d ++ List.replicate (4 - d.length) 0))).take (d.length + 1))

/-- A run of a run-length encoding. -/
inductive Run where
  | lit (bs : Bytes)
  | rep (n : Nat) (b : Byte)

/-- Legal run sizes: 1 to 128 literal bytes, 2 to 128 copies. -/
def Run.Legal : Run → Prop
  | .lit bs => 1 ≤ bs.length ∧ bs.length ≤ 128
  | .rep n _ => 2 ≤ n ∧ n ≤ 128

/-- Encoded form of a run: length byte `len - 1` or `257 - n`. -/
def Run.enc : Run → Bytes
  | .lit bs => UInt8.ofNat (bs.length - 1) :: bs
  | .rep n b => [UInt8.ofNat (257 - n), b]

/-- The bytes a run stands for. -/
def Run.data : Run → Bytes
  | .lit bs => bs
  | .rep n b => List.replicate n b

/-- Code sequences of LZW: `LzwSeq kwkwk ps cs d` says that, when the phrases sent since the last
clear-table code are `ps`, the codes `cs` stand for the data `d`. Entry `258 + j` of the table is
phrase `j` followed by the first byte of phrase `j + 1`. When `kwkwk = true` the entry just being
completed (`j + 1 = ps.length`) may be used as well, as LZW allows. End of data is not a code of
this sequence. -/
inductive LzwSeq (kwkwk : Bool) : List Bytes → List Nat → Bytes → Prop
  | done (ps) : LzwSeq kwkwk ps [] []
  | clear (ps cs d) : LzwSeq kwkwk [] cs d → LzwSeq kwkwk ps (256 :: cs) d
  | byte (ps cs d) (b : Byte) : LzwSeq kwkwk (ps ++ [[b]]) cs d →
      LzwSeq kwkwk ps (b.toNat :: cs) (b :: d)
  | entry (ps cs d) (j : Nat) (u v : Bytes) : ps[j]? = some u → ps[j + 1]? = some v →
      LzwSeq kwkwk (ps ++ [u ++ v.take 1]) cs d →
      LzwSeq kwkwk ps ((258 + j) :: cs) (u ++ v.take 1 ++ d)
  | self (ps cs d) (j : Nat) (u : Bytes) : kwkwk = true → ps[j]? = some u → j + 1 = ps.length →
      LzwSeq kwkwk (ps ++ [u ++ u.take 1]) cs d →
      LzwSeq kwkwk ps ((258 + j) :: cs) (u ++ u.take 1 ++ d)

/-- Width of the next code when `n` codes were sent since the last clear-table code
(EarlyChange = 1: the width grows when entry 511, 1023, 2047 enters the encoder's table). -/
def lzwWidth (n : Nat) : Nat := if n < 254 then 9 else if n < 766 then 10 else if n < 1790 then 11 else 12

/-- `bits` are the `w` lowest bits of `v`, most significant first. -/
def bitsOf : Nat → Nat → List Bool
  | 0, _ => []
  | w + 1, v => (v / 2 ^ w % 2 == 1) :: bitsOf w v

/-- Bit stream of a code sequence; `n` codes were sent since the last clear. At most 3838 codes
may be sent between two clears (table full). EOD (257) resets like a clear but ends the stream. -/
inductive LzwPack : Nat → List Nat → List Bool → Prop
  | nil (n) : LzwPack n [] []
  | clear (n cs bits) : n < 3838 → LzwPack 0 cs bits →
      LzwPack n (256 :: cs) (bitsOf (lzwWidth n) 256 ++ bits)
  | eod (n) : n < 3838 → LzwPack n [257] (bitsOf (lzwWidth n) 257)
  | code (n c cs bits) : n < 3838 → c ≠ 256 → c ≠ 257 → c < 2 ^ lzwWidth n → LzwPack (n + 1) cs bits →
      LzwPack n (c :: cs) (bitsOf (lzwWidth n) c ++ bits)

/-- The bits of a byte string, most significant first. -/
def bits8 (bs : Bytes) : List Bool := bs.flatMap (fun b => bitsOf 8 b.toNat)

/-- PNG prediction (ISO 32000-1, 7.4.4.4 / PNG specification 9.2), one byte per pixel. Undo one row
given its tag, the previous (already restored) row and the coded bytes; `left`, `upleft` are the
bytes to the left. -/
def pngUndo (tag : Byte) : Byte → Byte → Bytes → Bytes → Bytes
  | _, _, _, [] => []
  | left, upleft, ups, x :: xs =>
    let up := ups.headD 0
    let pa : Int := (up.toNat : Int) - upleft.toNat
    let pb : Int := (left.toNat : Int) - upleft.toNat
    let pc : Int := (left.toNat : Int) + up.toNat - 2 * upleft.toNat
    let paeth := if pa.natAbs ≤ pb.natAbs ∧ pa.natAbs ≤ pc.natAbs then left
                 else if pb.natAbs ≤ pc.natAbs then up else upleft
    let y := if tag = 1 then x + left
             else if tag = 2 then x + up
             else if tag = 3 then x + UInt8.ofNat ((left.toNat + up.toNat) / 2)
             else if tag = 4 then x + paeth
             else x
    y :: pngUndo tag y up ups.tail xs

/-- Undo all rows: each row is its tag and its coded bytes. -/
def pngUndoRows : Bytes → List (Byte × Bytes) → Bytes
  | _, [] => []
  | prev, (tag, row) :: rows =>
    let r := pngUndo tag 0 0 prev row
    r ++ pngUndoRows r rows

end PdfReader.Spec
