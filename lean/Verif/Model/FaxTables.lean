/-
  The code tables of pdfreader/filters/ccittfax.py, written by tools/genfax.py from its text.
-/
import Verif.Model.Basic

namespace PdfReader

/-- `bits!"01"` is a list of bits, expanded at elaboration time. -/
syntax:max (name := bitsLit) "bits!" noWs str : term

open Lean in
macro_rules
  | `(bits!$s:str) => do
    let bs ← s.getString.toList.mapM fun c => if c == '1' then `(true) else `(false)
    let elems : Array (TSyntax `term) := bs.toArray
    `(([$elems,*] : List Bool))

/-- The values of the table MODE, ccittfax.py:65-82; `x1` to `x7` are alike. -/
inductive FaxMode where
  | vertical (dx : Int) | horizontal | pass | uncompressed | eofb | extension
  deriving DecidableEq

/-- The table MODE, ccittfax.py:65-82. -/
def modeTable : List (FaxMode × List Bool) :=
  [((.vertical (0)), bits!"1"), ((.vertical (1)), bits!"011"), ((.vertical (-1)), bits!"010"), (.horizontal, bits!"001"), (.pass, bits!"0001"), ((.vertical (2)), bits!"000011"),
   ((.vertical (-2)), bits!"000010"), ((.vertical (3)), bits!"0000011"), ((.vertical (-3)), bits!"0000010"), (.uncompressed, bits!"0000001111"), (.extension, bits!"0000001000"), (.extension, bits!"0000001001"),
   (.extension, bits!"0000001010"), (.extension, bits!"0000001011"), (.extension, bits!"0000001100"), (.extension, bits!"0000001101"), (.extension, bits!"0000001110"), (.eofb, bits!"000000000001000000000001")]

/-- The table WHITE, ccittfax.py:85-188. -/
def whiteTable : List (Nat × List Bool) :=
  [(0, bits!"00110101"), (1, bits!"000111"), (2, bits!"0111"), (3, bits!"1000"), (4, bits!"1011"), (5, bits!"1100"),
   (6, bits!"1110"), (7, bits!"1111"), (8, bits!"10011"), (9, bits!"10100"), (10, bits!"00111"), (11, bits!"01000"),
   (12, bits!"001000"), (13, bits!"000011"), (14, bits!"110100"), (15, bits!"110101"), (16, bits!"101010"), (17, bits!"101011"),
   (18, bits!"0100111"), (19, bits!"0001100"), (20, bits!"0001000"), (21, bits!"0010111"), (22, bits!"0000011"), (23, bits!"0000100"),
   (24, bits!"0101000"), (25, bits!"0101011"), (26, bits!"0010011"), (27, bits!"0100100"), (28, bits!"0011000"), (29, bits!"00000010"),
   (30, bits!"00000011"), (31, bits!"00011010"), (32, bits!"00011011"), (33, bits!"00010010"), (34, bits!"00010011"), (35, bits!"00010100"),
   (36, bits!"00010101"), (37, bits!"00010110"), (38, bits!"00010111"), (39, bits!"00101000"), (40, bits!"00101001"), (41, bits!"00101010"),
   (42, bits!"00101011"), (43, bits!"00101100"), (44, bits!"00101101"), (45, bits!"00000100"), (46, bits!"00000101"), (47, bits!"00001010"),
   (48, bits!"00001011"), (49, bits!"01010010"), (50, bits!"01010011"), (51, bits!"01010100"), (52, bits!"01010101"), (53, bits!"00100100"),
   (54, bits!"00100101"), (55, bits!"01011000"), (56, bits!"01011001"), (57, bits!"01011010"), (58, bits!"01011011"), (59, bits!"01001010"),
   (60, bits!"01001011"), (61, bits!"00110010"), (62, bits!"00110011"), (63, bits!"00110100"), (64, bits!"11011"), (128, bits!"10010"),
   (192, bits!"010111"), (256, bits!"0110111"), (320, bits!"00110110"), (384, bits!"00110111"), (448, bits!"01100100"), (512, bits!"01100101"),
   (576, bits!"01101000"), (640, bits!"01100111"), (704, bits!"011001100"), (768, bits!"011001101"), (832, bits!"011010010"), (896, bits!"011010011"),
   (960, bits!"011010100"), (1024, bits!"011010101"), (1088, bits!"011010110"), (1152, bits!"011010111"), (1216, bits!"011011000"), (1280, bits!"011011001"),
   (1344, bits!"011011010"), (1408, bits!"011011011"), (1472, bits!"010011000"), (1536, bits!"010011001"), (1600, bits!"010011010"), (1664, bits!"011000"),
   (1728, bits!"010011011"), (1792, bits!"00000001000"), (1856, bits!"00000001100"), (1920, bits!"00000001101"), (1984, bits!"000000010010"), (2048, bits!"000000010011"),
   (2112, bits!"000000010100"), (2176, bits!"000000010101"), (2240, bits!"000000010110"), (2304, bits!"000000010111"), (2368, bits!"000000011100"), (2432, bits!"000000011101"),
   (2496, bits!"000000011110"), (2560, bits!"000000011111")]

/-- The table BLACK, ccittfax.py:191-294. -/
def blackTable : List (Nat × List Bool) :=
  [(0, bits!"0000110111"), (1, bits!"010"), (2, bits!"11"), (3, bits!"10"), (4, bits!"011"), (5, bits!"0011"),
   (6, bits!"0010"), (7, bits!"00011"), (8, bits!"000101"), (9, bits!"000100"), (10, bits!"0000100"), (11, bits!"0000101"),
   (12, bits!"0000111"), (13, bits!"00000100"), (14, bits!"00000111"), (15, bits!"000011000"), (16, bits!"0000010111"), (17, bits!"0000011000"),
   (18, bits!"0000001000"), (19, bits!"00001100111"), (20, bits!"00001101000"), (21, bits!"00001101100"), (22, bits!"00000110111"), (23, bits!"00000101000"),
   (24, bits!"00000010111"), (25, bits!"00000011000"), (26, bits!"000011001010"), (27, bits!"000011001011"), (28, bits!"000011001100"), (29, bits!"000011001101"),
   (30, bits!"000001101000"), (31, bits!"000001101001"), (32, bits!"000001101010"), (33, bits!"000001101011"), (34, bits!"000011010010"), (35, bits!"000011010011"),
   (36, bits!"000011010100"), (37, bits!"000011010101"), (38, bits!"000011010110"), (39, bits!"000011010111"), (40, bits!"000001101100"), (41, bits!"000001101101"),
   (42, bits!"000011011010"), (43, bits!"000011011011"), (44, bits!"000001010100"), (45, bits!"000001010101"), (46, bits!"000001010110"), (47, bits!"000001010111"),
   (48, bits!"000001100100"), (49, bits!"000001100101"), (50, bits!"000001010010"), (51, bits!"000001010011"), (52, bits!"000000100100"), (53, bits!"000000110111"),
   (54, bits!"000000111000"), (55, bits!"000000100111"), (56, bits!"000000101000"), (57, bits!"000001011000"), (58, bits!"000001011001"), (59, bits!"000000101011"),
   (60, bits!"000000101100"), (61, bits!"000001011010"), (62, bits!"000001100110"), (63, bits!"000001100111"), (64, bits!"0000001111"), (128, bits!"000011001000"),
   (192, bits!"000011001001"), (256, bits!"000001011011"), (320, bits!"000000110011"), (384, bits!"000000110100"), (448, bits!"000000110101"), (512, bits!"0000001101100"),
   (576, bits!"0000001101101"), (640, bits!"0000001001010"), (704, bits!"0000001001011"), (768, bits!"0000001001100"), (832, bits!"0000001001101"), (896, bits!"0000001110010"),
   (960, bits!"0000001110011"), (1024, bits!"0000001110100"), (1088, bits!"0000001110101"), (1152, bits!"0000001110110"), (1216, bits!"0000001110111"), (1280, bits!"0000001010010"),
   (1344, bits!"0000001010011"), (1408, bits!"0000001010100"), (1472, bits!"0000001010101"), (1536, bits!"0000001011010"), (1600, bits!"0000001011011"), (1664, bits!"0000001100100"),
   (1728, bits!"0000001100101"), (1792, bits!"00000001000"), (1856, bits!"00000001100"), (1920, bits!"00000001101"), (1984, bits!"000000010010"), (2048, bits!"000000010011"),
   (2112, bits!"000000010100"), (2176, bits!"000000010101"), (2240, bits!"000000010110"), (2304, bits!"000000010111"), (2368, bits!"000000011100"), (2432, bits!"000000011101"),
   (2496, bits!"000000011110"), (2560, bits!"000000011111")]

/-- The table UNCOMPRESSED: pixels, after `T` and the next colour if the mode ends, ccittfax.py:297-310. -/
def uncompressedTable : List ((Option Bool × List Bool) × List Bool) :=
  [((none, bits!"1"), bits!"1"), ((none, bits!"01"), bits!"01"), ((none, bits!"001"), bits!"001"), ((none, bits!"0001"), bits!"0001"), ((none, bits!"00001"), bits!"00001"), ((none, bits!"00000"), bits!"000001"),
   ((some false, bits!"0"), bits!"00000011"), ((some true, bits!"0"), bits!"00000010"), ((some false, bits!"00"), bits!"000000011"), ((some true, bits!"00"), bits!"000000010"), ((some false, bits!"000"), bits!"0000000011"), ((some true, bits!"000"), bits!"0000000010"),
   ((some false, bits!"0000"), bits!"00000000011"), ((some true, bits!"0000"), bits!"00000000010")]

end PdfReader
