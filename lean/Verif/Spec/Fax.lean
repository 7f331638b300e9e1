/-
  Group 4 facsimile coding (ITU-T T.6, with the run length codes of T.4) as ISO 32000-1, 7.4.6 uses it. Pixels are `true` for white.
-/
import Verif.Model.FaxTables

namespace PdfReader.Spec

/-- The bits of bytes, the high-order bit of each first. -/
def dataBits (data : Bytes) : List Bool := data.flatMap fun b => (List.range 8).map fun i => b.toNat.testBit (7 - i)

/-- Terminating codes of white runs of 0, 1, 2, … 63 pixels (T.4, Table 2). -/
def whiteTerminating : List (List Bool) :=
  [bits!"00110101", bits!"000111", bits!"0111", bits!"1000", bits!"1011", bits!"1100", bits!"1110", bits!"1111",
   bits!"10011", bits!"10100", bits!"00111", bits!"01000", bits!"001000", bits!"000011", bits!"110100", bits!"110101",
   bits!"101010", bits!"101011", bits!"0100111", bits!"0001100", bits!"0001000", bits!"0010111", bits!"0000011", bits!"0000100",
   bits!"0101000", bits!"0101011", bits!"0010011", bits!"0100100", bits!"0011000", bits!"00000010", bits!"00000011", bits!"00011010",
   bits!"00011011", bits!"00010010", bits!"00010011", bits!"00010100", bits!"00010101", bits!"00010110", bits!"00010111", bits!"00101000",
   bits!"00101001", bits!"00101010", bits!"00101011", bits!"00101100", bits!"00101101", bits!"00000100", bits!"00000101", bits!"00001010",
   bits!"00001011", bits!"01010010", bits!"01010011", bits!"01010100", bits!"01010101", bits!"00100100", bits!"00100101", bits!"01011000",
   bits!"01011001", bits!"01011010", bits!"01011011", bits!"01001010", bits!"01001011", bits!"00110010", bits!"00110011", bits!"00110100"]

/-- Terminating codes of black runs of 0, 1, 2, … 63 pixels (T.4, Table 2). -/
def blackTerminating : List (List Bool) :=
  [bits!"0000110111", bits!"010", bits!"11", bits!"10", bits!"011", bits!"0011", bits!"0010", bits!"00011",
   bits!"000101", bits!"000100", bits!"0000100", bits!"0000101", bits!"0000111", bits!"00000100", bits!"00000111", bits!"000011000",
   bits!"0000010111", bits!"0000011000", bits!"0000001000", bits!"00001100111", bits!"00001101000", bits!"00001101100", bits!"00000110111", bits!"00000101000",
   bits!"00000010111", bits!"00000011000", bits!"000011001010", bits!"000011001011", bits!"000011001100", bits!"000011001101", bits!"000001101000", bits!"000001101001",
   bits!"000001101010", bits!"000001101011", bits!"000011010010", bits!"000011010011", bits!"000011010100", bits!"000011010101", bits!"000011010110", bits!"000011010111",
   bits!"000001101100", bits!"000001101101", bits!"000011011010", bits!"000011011011", bits!"000001010100", bits!"000001010101", bits!"000001010110", bits!"000001010111",
   bits!"000001100100", bits!"000001100101", bits!"000001010010", bits!"000001010011", bits!"000000100100", bits!"000000110111", bits!"000000111000", bits!"000000100111",
   bits!"000000101000", bits!"000001011000", bits!"000001011001", bits!"000000101011", bits!"000000101100", bits!"000001011010", bits!"000001100110", bits!"000001100111"]

/-- Make-up codes of white runs of 64, 128, … 1728 pixels (T.4, Table 3a). -/
def whiteMakeUp : List (List Bool) :=
  [bits!"11011", bits!"10010", bits!"010111", bits!"0110111", bits!"00110110", bits!"00110111", bits!"01100100", bits!"01100101",
   bits!"01101000", bits!"01100111", bits!"011001100", bits!"011001101", bits!"011010010", bits!"011010011", bits!"011010100", bits!"011010101",
   bits!"011010110", bits!"011010111", bits!"011011000", bits!"011011001", bits!"011011010", bits!"011011011", bits!"010011000", bits!"010011001",
   bits!"010011010", bits!"011000", bits!"010011011"]

/-- Make-up codes of black runs of 64, 128, … 1728 pixels (T.4, Table 3a). -/
def blackMakeUp : List (List Bool) :=
  [bits!"0000001111", bits!"000011001000", bits!"000011001001", bits!"000001011011", bits!"000000110011", bits!"000000110100", bits!"000000110101", bits!"0000001101100",
   bits!"0000001101101", bits!"0000001001010", bits!"0000001001011", bits!"0000001001100", bits!"0000001001101", bits!"0000001110010", bits!"0000001110011", bits!"0000001110100",
   bits!"0000001110101", bits!"0000001110110", bits!"0000001110111", bits!"0000001010010", bits!"0000001010011", bits!"0000001010100", bits!"0000001010101", bits!"0000001011010",
   bits!"0000001011011", bits!"0000001100100", bits!"0000001100101"]

/-- Make-up codes of runs of 1792, 1856, … 2560 pixels of either colour (T.4, Table 3b). -/
def commonMakeUp : List (List Bool) :=
  [bits!"00000001000", bits!"00000001100", bits!"00000001101", bits!"000000010010", bits!"000000010011", bits!"000000010100", bits!"000000010101", bits!"000000010110",
   bits!"000000010111", bits!"000000011100", bits!"000000011101", bits!"000000011110", bits!"000000011111"]

/-- A run of pixels of a colour: make-up codes, then a terminating code. -/
inductive RunCode (white : Bool) : Nat → List Bool → Prop
  | terminating (n : Nat) (code : List Bool) : (if white then whiteTerminating else blackTerminating)[n]? = some code → RunCode white n code
  | makeUp (i n : Nat) (code rest : List Bool) : (if white then whiteMakeUp else blackMakeUp)[i]? = some code → RunCode white n rest →
      RunCode white (64 * (i + 1) + n) (code ++ rest)
  | common (i n : Nat) (code rest : List Bool) : commonMakeUp[i]? = some code → RunCode white n rest → RunCode white (64 * (i + 28) + n) (code ++ rest)

/-- The pixel before a pixel; before the first one there is an imaginary white pixel. -/
def before (row : List Bool) (i : Nat) : Option Bool := if i = 0 then some true else row[i - 1]?

/-- A changing element: its colour is not that of the pixel before. -/
def Changing (row : List Bool) (i : Nat) : Prop := i < row.length ∧ row[i]? ≠ before row i

/-- The first place from `lo` on with a property, or just after the end of the line. -/
def First (w lo : Nat) (P : Nat → Prop) (i : Nat) : Prop := lo ≤ i ∧ i ≤ w ∧ (i < w → P i) ∧ ∀ j, lo ≤ j → j < i → ¬ P j

/-- b1: the first changing element of the reference line to the right of a0 and of the opposite colour. -/
def B1 (ref : List Bool) (a0 : Int) (c : Bool) (b1 : Nat) : Prop :=
  First ref.length (a0 + 1).toNat (fun i => Changing ref i ∧ ref[i]? ≠ some c) b1

/-- b2: the next changing element to the right of b1. -/
def B2 (ref : List Bool) (b1 b2 : Nat) : Prop := First ref.length (min (b1 + 1) ref.length) (Changing ref) b2

/-- a1: the end of the run of colour `c` which starts at a0; a2: the end of the next run. -/
def RunEnd (row : List Bool) (a : Nat) (c : Bool) (e : Nat) : Prop := First row.length a (fun i => row[i]? ≠ some c) e

/-- The codes of vertical mode for a1 - b1 (T.6, Table 1). -/
def verticalCodes : List (Int × List Bool) :=
  [(0, bits!"1"), (1, bits!"011"), (2, bits!"000011"), (3, bits!"0000011"), (-1, bits!"010"), (-2, bits!"000010"), (-3, bits!"0000010")]

/-- `Coded ref row a0 c bits`: the rest of the line `row` from a0 on is coded by `bits`; `c` is the colour of the next run. At the start of
a line a0 is -1. T.6 prescribes which mode to choose; any choice is allowed here if it describes the line. -/
inductive Coded (ref row : List Bool) : Int → Bool → List Bool → Prop
  | done (c : Bool) : Coded ref row row.length c []
  | pass (a0 : Int) (c : Bool) (b1 b2 : Nat) (rest : List Bool) : a0 < row.length → B1 ref a0 c b1 → B2 ref b1 b2 →
      (∀ i : Nat, a0 ≤ i → i < b2 → row[i]? = some c) → Coded ref row b2 c rest → Coded ref row a0 c (bits!"0001" ++ rest)
  | vertical (a0 : Int) (c : Bool) (b1 a1 : Nat) (code rest : List Bool) : a0 < row.length → B1 ref a0 c b1 → RunEnd row a0.toNat c a1 →
      ((a1 : Int) - b1, code) ∈ verticalCodes → Coded ref row a1 (!c) rest → Coded ref row a0 c (code ++ rest)
  | horizontal (a0 : Int) (c : Bool) (a1 a2 : Nat) (r1 r2 rest : List Bool) : a0 < row.length → RunEnd row a0.toNat c a1 → RunEnd row a1 (!c) a2 →
      RunCode c (a1 - a0.toNat) r1 → RunCode (!c) (a2 - a1) r2 → Coded ref row a2 c rest → Coded ref row a0 c (bits!"001" ++ (r1 ++ (r2 ++ rest)))

/-- Bits before the next line: with EncodedByteAlign, up to the next byte. -/
def Fill (align : Bool) (code fill : List Bool) : Prop := if align then fill.length < 8 ∧ 8 ∣ (code ++ fill).length else fill = []

/-- `Lines w align ref rows bits`: the lines `rows` of `w` pixels, after the line `ref`, are coded by `bits`. -/
inductive Lines (w : Nat) (align : Bool) : List Bool → List (List Bool) → List Bool → Prop
  | nil (ref : List Bool) : Lines w align ref [] []
  | cons (ref row : List Bool) (rows : List (List Bool)) (code fill rest : List Bool) : row.length = w → Coded ref row (-1) true code →
      Fill align code fill → Lines w align row rows rest → Lines w align ref (row :: rows) (code ++ (fill ++ rest))

/-- The end-of-facsimile-block. -/
def eofb : List Bool := bits!"000000000001000000000001"

/-- Group 4 data of an image: lines, the first one after a white line; then an end-of-block with anything after it, or bits `0` up to the
next byte. -/
def FaxData (w : Nat) (align : Bool) (rows : List (List Bool)) (data : Bytes) : Prop :=
  ∃ bits rest, Lines w align (List.replicate w true) rows bits ∧ dataBits data = bits ++ rest ∧
    ((∃ more, rest = eofb ++ more) ∨ (rest.length < 8 ∧ ∀ b ∈ rest, b = false))

/-- The decoded image: the pixels of each line, filled up with 0 to whole bytes. White is 1, unless BlackIs1 is set. -/
def ImageBits (blackIs1 : Bool) (rows : List (List Bool)) (bits : List Bool) : Prop :=
  bits = rows.flatMap fun row => (if blackIs1 then row.map (!·) else row) ++ List.replicate ((8 - row.length % 8) % 8) false

end PdfReader.Spec
