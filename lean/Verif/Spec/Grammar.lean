/-
  Independent specification of the textual form of PDF objects (ISO 32000-1, 7.2 and 7.3), used by
  Verif/Props/Parser.lean. It refers to the model of the code only for the types of bytes and objects.
-/
import Verif.Model.Object

namespace PdfReader.Spec

/-- White-space characters. -/
def WS (c : Byte) : Prop := c ∈ ([0, 9, 10, 12, 13, 32] : Bytes)

/-- Delimiters `()<>[]{}/%`. -/
def Delim (c : Byte) : Prop := c ∈ (b!"()<>[]{}/%")

/-- Regular characters: all others. -/
def Regular (c : Byte) : Prop := ¬ WS c ∧ ¬ Delim c

/-- End-of-line characters. -/
def Eol (c : Byte) : Prop := c = 10 ∨ c = 13

/-- Decimal digits. -/
def Digit (c : Byte) : Prop := c ∈ (b!"0123456789")

/-- Octal digit with its value. -/
def OctDigit (v : Nat) (c : Byte) : Prop := (b!"01234567")[v]? = some c

/-- Hexadecimal digit of either case with its value. -/
def HexDig (v : Nat) (c : Byte) : Prop :=
  (b!"0123456789ABCDEF")[v]? = some c ∨ (b!"0123456789abcdef")[v]? = some c

/-- `s` does not start with a character satisfying `P` (in particular `s` may be empty). -/
def NotStart (P : Byte → Prop) (s : Bytes) : Prop := ∀ c t, s = c :: t → ¬ P c

/-- Separators between tokens: white space and comments (each ended by an end-of-line). -/
inductive Sep : Bytes → Prop
  | nil : Sep []
  | ws (c : Byte) (s : Bytes) : WS c → Sep s → Sep (c :: s)
  | comment (body : Bytes) (e : Byte) (s : Bytes) : (∀ c ∈ body, ¬ Eol c) → Eol e → Sep s →
      Sep (37 :: (body ++ e :: s))

/-- First character of a separator. -/
def SepChar (c : Byte) : Prop := WS c ∨ c = 37

/-- What a token made of regular characters must be followed by. -/
def Stop (s : Bytes) : Prop := NotStart Regular s

/-- Value of a string of decimal digits. -/
def decVal : Bytes → Nat
  | [] => 0
  | c :: ds => (c.toNat - 48) * 10 ^ ds.length + decVal ds

/-- A non-empty string of decimal digits. -/
def Digits (ds : Bytes) : Prop := ds ≠ [] ∧ ∀ c ∈ ds, Digit c

/-- `SignText neg t`: an optional sign. -/
def SignText (neg : Bool) (t : Bytes) : Prop := (neg = false ∧ (t = [] ∨ t = [43])) ∨ (neg = true ∧ t = [45])

/-- Texts of an integer. -/
inductive IntText : Int → Bytes → Prop
  | mk (neg : Bool) (sg ds : Bytes) : SignText neg sg → Digits ds →
      IntText (if neg then -(decVal ds : Int) else decVal ds) (sg ++ ds)

/-- Texts of a real: sign, integer digits, point, fraction digits; one of the digit strings may be
empty. The value is given as the pair coefficient, exponent; a missing fraction counts as `0`. -/
inductive RealText : Int → Int → Bytes → Prop
  | frac (neg : Bool) (sg ip fp : Bytes) : SignText neg sg → (∀ c ∈ ip, Digit c) → Digits fp →
      RealText ((if neg then -1 else 1) * decVal (ip ++ fp)) (-(fp.length : Int)) (sg ++ (ip ++ 46 :: fp))
  | nofrac (neg : Bool) (sg ip : Bytes) : SignText neg sg → Digits ip →
      RealText ((if neg then -1 else 1) * (10 * decVal ip)) (-1) (sg ++ (ip ++ [46]))

/-- Texts of a name, after its `/`: regular characters other than `#`, and `#xx`. -/
inductive NameText : Bytes → Bytes → Prop
  | nil : NameText [] []
  | plain (c : Byte) (n t : Bytes) : Regular c → c ≠ 35 → NameText n t → NameText (c :: n) (c :: t)
  | esc (c x y : Byte) (n t : Bytes) : HexDig (c.toNat / 16) x → HexDig (c.toNat % 16) y →
      NameText n t → NameText (c :: n) (35 :: x :: y :: t)

/-- Characters with a named escape: (letter after the backslash, byte denoted). -/
def namedEscapes : List (Byte × Byte) :=
  [(110, 10), (114, 13), (116, 9), (98, 8), (102, 12), (40, 40), (41, 41), (92, 92)]

/-- Texts of a literal string, between its parentheses. A raw CR is excluded here (ISO 32000-1 7.3.4.2
reads an unescaped end-of-line as LF; see `C14_raw_cr_counterexample`). -/
inductive StrText : Bytes → Bytes → Prop
  | nil : StrText [] []
  | plain (c : Byte) (v t : Bytes) : c ≠ 40 → c ≠ 41 → c ≠ 92 → c ≠ 13 → StrText v t →
      StrText (c :: v) (c :: t)
  | paren (v t v' t' : Bytes) : StrText v t → StrText v' t' →
      StrText (40 :: (v ++ 41 :: v')) (40 :: (t ++ 41 :: t'))
  | named (l b : Byte) (v t : Bytes) : (l, b) ∈ namedEscapes → StrText v t → StrText (b :: v) (92 :: l :: t)
  | oct1 (b x : Byte) (v t : Bytes) : OctDigit b.toNat x → NotStart (fun c => ∃ k, OctDigit k c) t →
      StrText v t → StrText (b :: v) (92 :: x :: t)
  | oct2 (b x y : Byte) (v t : Bytes) : OctDigit (b.toNat / 8) x → OctDigit (b.toNat % 8) y →
      NotStart (fun c => ∃ k, OctDigit k c) t → StrText v t → StrText (b :: v) (92 :: x :: y :: t)
  | oct3 (b x y z : Byte) (v t : Bytes) : OctDigit (b.toNat / 64) x → OctDigit (b.toNat / 8 % 8) y →
      OctDigit (b.toNat % 8) z → StrText v t → StrText (b :: v) (92 :: x :: y :: z :: t)
  | contLF (v t : Bytes) : StrText v t → StrText v (92 :: 10 :: t)
  | contCRLF (v t : Bytes) : StrText v t → StrText v (92 :: 13 :: 10 :: t)
  | contCR (v t : Bytes) : NotStart (· = 10) t → StrText v t → StrText v (92 :: 13 :: t)

/-- Texts of the digits of a hexadecimal string, between `<` and `>`; digits are delivered in upper
case. -/
inductive HexText : Bytes → Bytes → Prop
  | nil : HexText [] []
  | ws (c : Byte) (d t : Bytes) : WS c → HexText d t → HexText d (c :: t)
  | digit (v : Nat) (u c : Byte) (d t : Bytes) : (b!"0123456789ABCDEF")[v]? = some u → HexDig v c →
      HexText d t → HexText (u :: d) (c :: t)

/-- Hexadecimal digits padded to an even number. -/
def padHex (d : Bytes) : Bytes := if d.length % 2 = 0 then d else d ++ [48]

/-- The last value given to key `k`. -/
def lastVal (raw : List (Bytes × Obj)) (k : Bytes) : Option Obj :=
  (raw.reverse.find? (fun e => e.1 == k)).map (·.2)

/-- The dictionary written as the sequence `raw` of entries: each key once, in order of first
occurrence, with its last value. -/
def dictOf (raw : List (Bytes × Obj)) : List (Bytes × Obj) :=
  (raw.map (·.1)).eraseDups.filterMap (fun k => (lastVal raw k).map (fun v => (k, v)))

/-- Objects whose text ends in a regular character (or is `/`), so that a delimiter or white space must
follow. -/
def needsStop : Obj → Bool
  | .null | .bool _ | .int _ | .real _ _ | .name _ | .ref _ _ => true
  | _ => false

/-- What is described by a text: one object, the content of an array, or the entries of a
dictionary. -/
inductive Syn where
  | obj (o : Obj)
  | items (os : List Obj)
  | ents (raw : List (Bytes × Obj))

/-- `Den refs x t`: `t` is a text of `x`. `refs` says whether indirect references may occur. Negative
reals are limited to 28 digits (see `C18_negative_real_counterexample`). -/
inductive Den (refs : Bool) : Syn → Bytes → Prop
  | null : Den refs (.obj .null) (b!"null")
  | true : Den refs (.obj (.bool true)) (b!"true")
  | false : Den refs (.obj (.bool false)) (b!"false")
  | int (n : Int) (t : Bytes) : IntText n t → Den refs (.obj (.int n)) t
  | real (c e : Int) (t : Bytes) : RealText c e t → -(10 ^ 28 : Int) < c → Den refs (.obj (.real c e)) t
  | name (n t : Bytes) : NameText n t → Den refs (.obj (.name n)) (47 :: t)
  | str (v t : Bytes) : StrText v t → Den refs (.obj (.str v)) (40 :: (t ++ [41]))
  | hex (d t : Bytes) : HexText d t → Den refs (.obj (.hex (padHex d))) (60 :: (t ++ [62]))
  | ref (ds gs s₁ s₂ : Bytes) : refs = Bool.true → Digits ds → Digits gs → Sep s₁ → s₁ ≠ [] → Sep s₂ → s₂ ≠ [] →
      Den refs (.obj (.ref (decVal ds) (decVal gs))) (ds ++ (s₁ ++ (gs ++ (s₂ ++ [82]))))
  | arr (os : List Obj) (u : Bytes) : Den refs (.items os) u → Den refs (.obj (.arr os)) (91 :: (u ++ [93]))
  | dict (raw : List (Bytes × Obj)) (u : Bytes) : Den refs (.ents raw) u →
      Den refs (.obj (.dict (dictOf raw))) (60 :: 60 :: (u ++ [62, 62]))
  | itemsNil (s : Bytes) : Sep s → Den refs (.items []) s
  | itemsCons (s : Bytes) (o : Obj) (t : Bytes) (os : List Obj) (u : Bytes) : Sep s → Den refs (.obj o) t →
      (needsStop o = Bool.true → Stop u) → Den refs (.items os) u → Den refs (.items (o :: os)) (s ++ (t ++ u))
  | entsNil (s : Bytes) : Sep s → Den refs (.ents []) s
  | entsCons (s k kt s₁ : Bytes) (v : Obj) (t : Bytes) (es : List (Bytes × Obj)) (u : Bytes) : Sep s →
      NameText k kt → Sep s₁ → Stop (s₁ ++ t) → Den refs (.obj v) t → (needsStop v = Bool.true → Stop u) →
      Den refs (.ents es) u → Den refs (.ents ((k, v) :: es)) (s ++ 47 :: (kt ++ (s₁ ++ (t ++ u))))

/-- Where references are allowed, an integer must not be followed by what would complete a reference
`n g R` (nor by a number and a comment that never ends). -/
def LookOk (r : Bytes) : Prop :=
  ∀ neg sg ds r₁, r = sg ++ (ds ++ r₁) → SignText neg sg → Digits ds → NotStart Digit r₁ →
    ∃ s r₂, r₁ = s ++ r₂ ∧ Sep s ∧ NotStart SepChar r₂ ∧ NotStart (· = 82) r₂

/-- What may follow the text of a top-level object: `s ++ r`, where `s` is the separator part. -/
structure Follow (refs : Bool) (o : Obj) (s r : Bytes) : Prop where
  sep : Sep s
  rest : NotStart SepChar r
  stop : needsStop o = true → Stop (s ++ r)
  look : refs = true → (∃ n, o = .int n) → LookOk r
  /-- a dictionary followed by `s…` would be a stream -/
  noStream : (∃ d, o = .dict d) → NotStart (· = 115) r

/-- What is left of the input after the object: a dictionary also swallows the separators after it
(looking for `stream`). -/
def leftover (o : Obj) (s r : Bytes) : Bytes :=
  match o with
  | .dict _ => r
  | _ => s ++ r

end PdfReader.Spec
