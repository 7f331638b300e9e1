/-
  Dates (ISO 32000-1, 7.9.4), UTF-8 (RFC 3629), and what is expected of a parser of ISO 8601 dates.
-/
import Verif.Model.Metadata

namespace PdfReader.Spec

/-- The days of a month. -/
def daysIn (year month : Nat) : Nat :=
  if month = 2 then if year % 4 = 0 ∧ (year % 100 ≠ 0 ∨ year % 400 = 0) then 29 else 28
  else if month ∈ [4, 6, 9, 11] then 30 else 31

/-- The fields of a point in time. -/
def Valid (m : Moment) : Prop :=
  1 ≤ m.year ∧ m.year ≤ 9999 ∧ 1 ≤ m.month ∧ m.month ≤ 12 ∧ 1 ≤ m.day ∧ m.day ≤ daysIn m.year m.month ∧ m.hour ≤ 23 ∧ m.minute ≤ 59 ∧ m.second ≤ 59 ∧ m.offset.natAbs < 1440

/-- A number with two digits. -/
def two (n : Nat) : Text := [48 + n / 10 % 10, 48 + n % 10]

/-- A number with four digits. -/
def four (n : Nat) : Text := two (n / 100) ++ two (n % 100)

/-- The signs with which an offset may be written; Z goes with the offset 0 only. -/
def OffsetSign (offset : Int) (c : Nat) : Prop := (c = 43 ∧ 0 ≤ offset) ∨ (c = 45 ∧ offset ≤ 0) ∨ (c = 90 ∧ offset = 0)

/-- `OHH'mm`; the apostrophe at the end, which older versions of the standard ask for, may be there or not. -/
inductive OffsetText : Int → Text → Prop
  | none : OffsetText 0 []
  | zulu : OffsetText 0 [90]
  | hours (offset : Int) (c : Nat) : OffsetSign offset c → offset.natAbs % 60 = 0 → OffsetText offset (c :: two (offset.natAbs / 60))
  | full (offset : Int) (c : Nat) (tail : Text) : OffsetSign offset c → tail = [] ∨ tail = [39] →
      OffsetText offset (c :: (two (offset.natAbs / 60) ++ ([39] ++ (two (offset.natAbs % 60) ++ tail))))

/-- `D:YYYYMMDDHHmmSSOHH'mm`: everything after the year may be missing, from some field on. -/
inductive DateText : Moment → Text → Prop
  | year (y : Nat) : DateText ⟨y, 1, 1, 0, 0, 0, 0⟩ ([68, 58] ++ four y)
  | month (y mo : Nat) : DateText ⟨y, mo, 1, 0, 0, 0, 0⟩ ([68, 58] ++ (four y ++ two mo))
  | day (y mo d : Nat) : DateText ⟨y, mo, d, 0, 0, 0, 0⟩ ([68, 58] ++ (four y ++ (two mo ++ two d)))
  | hour (y mo d h : Nat) : DateText ⟨y, mo, d, h, 0, 0, 0⟩ ([68, 58] ++ (four y ++ (two mo ++ (two d ++ two h))))
  | minute (y mo d h mi : Nat) : DateText ⟨y, mo, d, h, mi, 0, 0⟩ ([68, 58] ++ (four y ++ (two mo ++ (two d ++ (two h ++ two mi)))))
  | second (y mo d h mi s : Nat) (off : Int) (t : Text) : OffsetText off t →
      DateText ⟨y, mo, d, h, mi, s, off⟩ ([68, 58] ++ (four y ++ (two mo ++ (two d ++ (two h ++ (two mi ++ (two s ++ t)))))))

/-- `YYYY-MM-DDTHH:mm:SS±HH:mm` -/
def IsoText (m : Moment) (c : Nat) : Text :=
  four m.year ++ ([45] ++ (two m.month ++ ([45] ++ (two m.day ++ ([84] ++ (two m.hour ++ ([58] ++ (two m.minute ++ ([58] ++ (two m.second ++ (c :: (two (m.offset.natAbs / 60) ++ ([58] ++ two (m.offset.natAbs % 60))))))))))))))

/-- What is expected of the libraries: the ASCII digits, and that ISO 8601 dates are understood. -/
structure DateLib.Good (L : DateLib) : Prop where
  digit : ∀ c, c < 128 → L.digit c = (48 ≤ c && c ≤ 57)
  parse : ∀ m c, Valid m → (c = 43 ∧ 0 ≤ m.offset) ∨ (c = 45 ∧ m.offset ≤ 0) → L.parse (IsoText m c) = .ok m

/-- UTF-8 of a character: 7 bits, or a number of bytes with 5, 4 or 3 bits in the first one and 6 in each of the others. -/
def charUtf8 (x : Nat) : Bytes :=
  if x < 0x80 then [UInt8.ofNat x]
  else if x < 0x800 then [UInt8.ofNat (0xC0 + x / 64), UInt8.ofNat (0x80 + x % 64)]
  else if x < 0x10000 then [UInt8.ofNat (0xE0 + x / 4096), UInt8.ofNat (0x80 + x / 64 % 64), UInt8.ofNat (0x80 + x % 64)]
  else [UInt8.ofNat (0xF0 + x / 262144), UInt8.ofNat (0x80 + x / 4096 % 64), UInt8.ofNat (0x80 + x / 64 % 64), UInt8.ofNat (0x80 + x % 64)]

/-- The characters of Unicode: no surrogates. -/
def Scalar (x : Nat) : Prop := x < 0xD800 ∨ (0xDFFF < x ∧ x ≤ 0x10FFFF)

/-- The characters which are in PDFDocEncoding at their Unicode value (ISO 32000-1, D.2). -/
def DocChar (x : Nat) : Prop := x = 9 ∨ x = 10 ∨ x = 13 ∨ (32 ≤ x ∧ x < 127) ∨ (0xA1 ≤ x ∧ x ≤ 0xFF ∧ x ≠ 0xAD)

/-- Text strings (ISO 32000-1, 7.9.2.2): PDFDocEncoding, or UTF-16BE after the byte order mark. Of both, the characters with one code. -/
inductive TextString : Text → Bytes → Prop
  | doc (t : Text) : (∀ x ∈ t, DocChar x) → TextString t (t.map UInt8.ofNat)
  | utf16 (t : Text) : (∀ x ∈ t, x < 0xD800 ∨ (0xDFFF < x ∧ x < 0x10000)) → TextString t ([0xFE, 0xFF] ++ t.flatMap fun x => [UInt8.ofNat (x / 256), UInt8.ofNat x])

end PdfReader.Spec
