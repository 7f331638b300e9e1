/-
  Specification of CMap files (Adobe Technical Note 5014; ISO 32000-1, 9.7.5 and 9.10.3) as far as pdfreader reads them, and of
  the mapping they define. It refers to the model of the code only for the types of bytes, objects and texts.
-/
import Verif.Spec.Grammar
import Verif.Model.CMap

namespace PdfReader.Spec

/-- An element of a CMap file: an object or a word (operator). -/
inductive Item where
  | obj (o : Obj)
  | word (w : Bytes)

/-- Words: regular characters, not starting like a number, nor like `null`, `true`, `false`; words in `n`, `t` and `f` have at
least five characters. -/
def WordText (w : Bytes) : Prop :=
  w ≠ [] ∧ (∀ c ∈ w, Regular c) ∧ NotStart (fun c => Digit c ∨ c = 43 ∨ c = 45 ∨ c = 46) w ∧
  (NotStart (· ∈ (b!"ntf")) w ∨ (5 ≤ w.length ∧ ∀ k ∈ ([b!"null", b!"true", b!"false"] : List Bytes), ¬ k <+: w))

/-- `ItemsText is t`: `t` is a text of the elements `is`, with any separators. A dictionary must not be followed by a word in `s`. -/
inductive ItemsText : List Item → Bytes → Prop
  | nil (s : Bytes) : Sep s → ItemsText [] s
  | obj (s : Bytes) (o : Obj) (t : Bytes) (is : List Item) (u : Bytes) : Sep s → Den false (.obj o) t →
      (needsStop o = true → Stop u) →
      ((∃ d, o = .dict d) → ∀ w is', is = .word w :: is' → NotStart (· = 115) w) →
      ItemsText is u → ItemsText (.obj o :: is) (s ++ (t ++ u))
  | word (s w : Bytes) (is : List Item) (u : Bytes) : Sep s → WordText w → Stop u →
      ItemsText is u → ItemsText (.word w :: is) (s ++ (w ++ u))

/-- Destination of a range: the code of the first character, a number, or an array with the codes of all. -/
inductive Dst where
  | code (d : Bytes)
  | num (n : Int)
  | list (ds : List Bytes)

def Dst.obj : Dst → Obj
  | .code d => .hex d
  | .num n => .int n
  | .list ds => .arr (ds.map .hex)

/-- A row of a range section: first code, last code, destination. -/
structure RangeRow where
  lo : Bytes
  hi : Bytes
  dst : Dst

def RangeRow.items (r : RangeRow) : List Item := [.obj (.hex r.lo), .obj (.hex r.hi), .obj r.dst.obj]

/-- A row of a char section or of a codespace section. -/
def pairItems (p : Bytes × Bytes) : List Item := [.obj (.hex p.1), .obj (.hex p.2)]

/-- The body of a CMap: sections, and other elements between them. -/
inductive Block where
  | item (i : Item)
  | ranges (kind : Bytes) (rows : List RangeRow)
  | chars (kind : Bytes) (rows : List (Bytes × Bytes))
  | codespace (rows : List (Bytes × Bytes))

def Block.items : Block → List Item
  | .item i => [i]
  | .ranges k rows => .word (b!"begin" ++ (k ++ b!"range")) :: (rows.flatMap RangeRow.items ++ [.word (b!"end" ++ (k ++ b!"range"))])
  | .chars k rows => .word (b!"begin" ++ (k ++ b!"char")) :: (rows.flatMap pairItems ++ [.word (b!"end" ++ (k ++ b!"char"))])
  | .codespace rows => .word b!"begincodespacerange" :: (rows.flatMap pairItems ++ [.word b!"endcodespacerange"])

/-- `/CIDInit /ProcSet findresource begin n dict begin begincmap` -/
def headItems (n : Nat) : List Item :=
  [.obj (.name b!"CIDInit"), .obj (.name b!"ProcSet"), .word b!"findresource", .word b!"begin", .obj (.int n), .word b!"dict",
   .word b!"begin", .word b!"begincmap"]

/-- A text of the CMap with these blocks. -/
def CMapText (n : Nat) (bs : List Block) (t : Bytes) : Prop := ItemsText (headItems n ++ bs.flatMap Block.items) t

/-- The name at the start of the elements. -/
def leadingName : List Item → Option Bytes
  | .obj (.name m) :: _ => some m
  | _ => none

/-- The name of a CMap: what follows the first `/CMapName`, if it is a name. -/
def nameOf : List Item → Option Bytes
  | [] => none
  | i :: is =>
    match i with
    | .obj (.name n) => if n = b!"CMapName" then leadingName is else nameOf is
    | _ => nameOf is

/-- Value of a string of hexadecimal digits. -/
def hexValue : Bytes → Nat
  | [] => 0
  | c :: ds => ((hexVal? c).getD 0) * 16 ^ ds.length + hexValue ds

/-- Hexadecimal digits in upper case. -/
def UpHex (d : Bytes) : Prop := ∀ c ∈ d, c ∈ (b!"0123456789ABCDEF")

/-- The characters of a destination: groups of four digits (UTF-16 code units). -/
def unitsOf (d : Bytes) : Text :=
  if _h : d = [] then [] else hexValue (d.take 4) :: unitsOf (d.drop 4)
termination_by d.length
decreasing_by
  rw [List.length_drop]
  have : d.length ≠ 0 := fun e => _h (List.eq_nil_of_length_eq_zero e)
  omega

/-- The character with the given code; codes outside of Unicode give the replacement character. -/
def charOf (n : Int) : Text := if 0 ≤ n ∧ n ≤ 0x10FFFF then [n.toNat] else [0xFFFD]

/-- The text for the `i`-th code of a range. -/
def Dst.at (d : Dst) (i : Nat) : Text :=
  match d with
  | .code d => charOf (hexValue d + i)
  | .num n => charOf (n + i)
  | .list ds => unitsOf (ds[i]?.getD [])

/-- `x` is one of the codes from `lo` to `hi`. -/
def InRange (lo hi x : Bytes) : Prop := x.length = lo.length ∧ hexValue lo ≤ hexValue x ∧ hexValue x ≤ hexValue hi

instance (lo hi x : Bytes) : Decidable (InRange lo hi x) := inferInstanceAs (Decidable (_ ∧ _ ∧ _))

/-- What a range row says about code `x`. -/
def RangeRow.get (r : RangeRow) (x : Bytes) : Option Text :=
  if InRange r.lo r.hi x then some (r.dst.at (hexValue x - hexValue r.lo)) else none

/-- What a char row says about code `x`: in a `bfchar` section the destination is a text, else a number. -/
def charGet (kind : Bytes) (p : Bytes × Bytes) (x : Bytes) : Option Text :=
  if x = p.1 then some (if kind = b!"bf" then unitsOf p.2 else charOf (hexValue p.2)) else none

/-- Rows of the range sections of a kind. -/
def rangeRows (kind : Bytes) (bs : List Block) : List RangeRow :=
  bs.flatMap (fun b => match b with | .ranges k rows => if k = kind then rows else [] | _ => [])

/-- Rows of the char sections of a kind. -/
def charRows (kind : Bytes) (bs : List Block) : List (Bytes × Bytes) :=
  bs.flatMap (fun b => match b with | .chars k rows => if k = kind then rows else [] | _ => [])

/-- Rows of the codespace sections. -/
def codespaceRows (bs : List Block) : List (Bytes × Bytes) :=
  bs.flatMap (fun b => match b with | .codespace rows => rows | _ => [])

/-- The mapping of a kind: the first range row which has the code counts, then the first char row. -/
def lookup (kind : Bytes) (bs : List Block) (x : Bytes) : Option Text :=
  ((rangeRows kind bs).findSome? (fun r => r.get x)).or ((charRows kind bs).findSome? (fun p => charGet kind p x))

/-- A proper range row: codes of the same positive number of digits, in order, with a destination for each code. -/
def RangeRow.Ok (r : RangeRow) : Prop :=
  r.lo ≠ [] ∧ r.lo.length = r.hi.length ∧ hexValue r.lo ≤ hexValue r.hi ∧ UpHex r.lo ∧ UpHex r.hi ∧
  match r.dst with
  | .code d => d ≠ [] ∧ UpHex d
  | .num _ => True
  | .list ds => hexValue r.hi - hexValue r.lo < ds.length ∧ ∀ d ∈ ds, UpHex d

/-- A proper char row. -/
def CharOk (p : Bytes × Bytes) : Prop := p.1 ≠ [] ∧ UpHex p.1 ∧ p.2 ≠ [] ∧ UpHex p.2

/-- A proper codespace row. -/
def PairOk (p : Bytes × Bytes) : Prop :=
  p.1 ≠ [] ∧ p.1.length = p.2.length ∧ hexValue p.1 ≤ hexValue p.2 ∧ UpHex p.1 ∧ UpHex p.2

/-- The kinds of mappings. -/
def kinds : List Bytes := [b!"bf", b!"cid", b!"notdef"]

/-- Proper blocks; elements outside of sections do not start one. -/
def Block.Ok : Block → Prop
  | .item (.obj _) => True
  | .item (.word w) => w ≠ b!"begincodespacerange" ∧ ∀ k ∈ kinds, w ≠ b!"begin" ++ (k ++ b!"range") ∧ w ≠ b!"begin" ++ (k ++ b!"char")
  | .ranges k rows => k ∈ kinds ∧ ∀ r ∈ rows, r.Ok
  | .chars k rows => k ∈ kinds ∧ ∀ p ∈ rows, CharOk p
  | .codespace rows => ∀ p ∈ rows, PairOk p

/-- A character code: hexadecimal digits in upper case, at least one. -/
def CodeOk (x : Bytes) : Prop := x ≠ [] ∧ UpHex x

/-- A string of codes with their texts: each code has two or four digits and is mapped to its text, and no code of four digits
starts with a code of two digits which is mapped itself. -/
def Segments (m : Bytes → Option Text) (segs : List (Bytes × Text)) : Prop :=
  ∀ p ∈ segs, UpHex p.1 ∧ m p.1 = some p.2 ∧ (p.1.length = 2 ∨ (p.1.length = 4 ∧ m (p.1.take 2) = none))

/-- The two hexadecimal digits of a byte. -/
def hexPair (c : Byte) : Bytes :=
  [(b!"0123456789ABCDEF")[c.toNat / 16]?.getD 0, (b!"0123456789ABCDEF")[c.toNat % 16]?.getD 0]

/-- The answer of a mapping: KeyError for a code it does not have. -/
def answer (o : Option Text) : Res Text :=
  match o with
  | some t => .ok t
  | none => .error .keyError

/-- Text of a list of UTF-16 code units. -/
def utf16 : List Nat → Text
  | [] => []
  | [u] => [u]
  | u :: v :: r =>
    if 0xD800 ≤ u ∧ u ≤ 0xDBFF ∧ 0xDC00 ≤ v ∧ v ≤ 0xDFFF then (0x10000 + (u - 0xD800) * 0x400 + (v - 0xDC00)) :: utf16 r
    else u :: utf16 (v :: r)

/-- The code units written by hexadecimal digits, four for each. -/
def codeUnits : Bytes → List Nat
  | a :: b :: c :: d :: r => hexValue [a, b, c, d] :: codeUnits r
  | _ => []

end PdfReader.Spec
