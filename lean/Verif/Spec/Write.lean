/-
  A writer of PDF files: the text of objects, and a file made of revisions, each with its objects, a cross-reference table and a trailer;
  and a file with an object stream and a cross-reference stream.
  Used to state that what is written is read back. It does not refer to the model of the code, except for the types of bytes and objects.
-/
import Verif.Spec.Document

namespace PdfReader.Spec

/-! ### Objects -/

/-- Decimal digits, at most `w` of them. -/
def showDigits : Nat → Nat → Bytes
  | 0, _ => []
  | w + 1, n => showDigits w (n / 10) ++ [UInt8.ofNat (48 + n % 10)]

/-- Decimal digits without leading zeros (`w` is enough). -/
def showUpTo : Nat → Nat → Bytes
  | 0, _ => []
  | w + 1, n => if n < 10 then [UInt8.ofNat (48 + n)] else showUpTo w (n / 10) ++ [UInt8.ofNat (48 + n % 10)]

def showNat (n : Nat) : Bytes := showUpTo (n + 1) n

def showInt (n : Int) : Bytes := if n < 0 then 45 :: showNat n.natAbs else showNat n.natAbs

/-- Digits and the point before the last `k`. -/
def showPoint (k n : Nat) : Bytes := (let ds := List.replicate (k - (showNat n).length) 48 ++ showNat n; ds.take (ds.length - k) ++ 46 :: ds.drop (ds.length - k))

def hexOf (v : Nat) : Byte := (b!"0123456789ABCDEF")[v]?.getD 48

def octOf (v : Nat) : Byte := UInt8.ofNat (48 + v)

/-- Letters and digits stand for themselves in names. -/
def letter (c : Byte) : Bool := decide (48 ≤ c.toNat ∧ c.toNat ≤ 57) || decide (65 ≤ c.toNat ∧ c.toNat ≤ 90) || decide (97 ≤ c.toNat ∧ c.toNat ≤ 122)

def showName (n : Bytes) : Bytes := n.flatMap fun c => if letter c then [c] else [35, hexOf (c.toNat / 16), hexOf (c.toNat % 16)]

def showStr (v : Bytes) : Bytes :=
  v.flatMap fun c => if letter c || c == 32 then [c] else [92, octOf (c.toNat / 64), octOf (c.toNat / 8 % 8), octOf (c.toNat % 8)]

mutual
def showObj : Obj → Bytes
  | .null => b!"null"
  | .bool true => b!"true"
  | .bool false => b!"false"
  | .int n => showInt n
  | .real c e => if c < 0 then 45 :: showPoint e.natAbs c.natAbs else showPoint e.natAbs c.natAbs
  | .name n => 47 :: showName n
  | .str v => 40 :: (showStr v ++ [41])
  | .hex d => 60 :: (d ++ [62])
  | .ref n g => showNat n ++ (32 :: (showNat g ++ [32, 82]))
  | .arr os => 91 :: (showItems os ++ [93])
  | .dict es => 60 :: 60 :: (showEnts es ++ [62, 62])
  | _ => []
def showItems : List Obj → Bytes
  | [] => []
  | o :: os => 32 :: (showObj o ++ showItems os)
def showEnts : List (Bytes × Obj) → Bytes
  | [] => []
  | (k, v) :: es => 47 :: (showName k ++ (32 :: (showObj v ++ showEnts es)))
end

mutual
/-- Objects which can be written: digits of hexadecimal strings in upper case and even in number, distinct keys; reals have a fraction, and the
negative ones at most 28 digits; streams are no parts of other objects. -/
def Writable : Obj → Prop
  | .null | .bool _ | .int _ | .name _ | .str _ | .ref _ _ => True
  | .real c e => e < 0 ∧ -(10 ^ 28 : Int) < c
  | .hex d => d.length % 2 = 0 ∧ ∀ c ∈ d, c ∈ (b!"0123456789ABCDEF")
  | .arr os => WritableItems os
  | .dict es => (es.map (·.1)).Nodup ∧ WritableEnts es
  | _ => False
def WritableItems : List Obj → Prop
  | [] => True
  | o :: os => Writable o ∧ WritableItems os
def WritableEnts : List (Bytes × Obj) → Prop
  | [] => True
  | (_, v) :: es => Writable v ∧ WritableEnts es
end

/-! ### Files -/

/-- The value of an indirect object. -/
def showValue : Obj → Bytes
  | .stream d data => 60 :: 60 :: (showEnts d ++ 62 :: 62 :: ([10] ++ (b!"stream" ++ ([10] ++ (data ++ ([10] ++ b!"endstream"))))))
  | o => showObj o

/-- Values which can be written: objects, and streams whose Length is right. -/
def WritableValue : Obj → Prop
  | .stream d data => (d.map (·.1)).Nodup ∧ WritableEnts d ∧ (b!"Length", .int data.length) ∈ d
  | o => Writable o

/-- An indirect object with its number and generation. -/
structure FileItem where
  num : Nat
  gen : Nat
  val : Obj

def showItem (i : FileItem) : Bytes :=
  showNat i.num ++ (32 :: (showNat i.gen ++ (32 :: (b!"obj" ++ ([10] ++ (showValue i.val ++ ([10] ++ b!"endobj")))))))

/-- Objects, a line each. -/
def showBody : List FileItem → Bytes
  | [] => []
  | i :: is => showItem i ++ (10 :: showBody is)

/-- One entry as a subsection of its own. -/
def showEntry (num off gen : Nat) : Bytes :=
  showNat num ++ (32 :: ([49] ++ ([10] ++ (showDigits 10 off ++ (32 :: (showDigits 5 gen ++ (32 :: (110 :: [32, 10]))))))))

/-- The cross-reference table of objects written from offset `off` on. -/
def showTable : Nat → List FileItem → Bytes
  | _, [] => []
  | off, i :: is => showEntry i.num off i.gen ++ showTable (off + (showItem i).length + 1) is

/-- A revision: its objects and the entries of its trailer (Prev is added by the writer). -/
structure Draft where
  items : List FileItem
  trailer : List (Bytes × Obj)

/-- The trailer dictionary of a revision. -/
def Draft.dict (d : Draft) (prev : Option Nat) : List (Bytes × Obj) :=
  match prev with
  | none => d.trailer
  | some p => d.trailer ++ [(b!"Prev", .int p)]

/-- The text of a revision which begins at offset `start`. -/
def Draft.show (d : Draft) (start : Nat) (prev : Option Nat) : Bytes :=
  showBody d.items ++ (b!"xref" ++ ([10] ++ (showTable start d.items ++ ([] ++ (b!"trailer" ++ ([10] ++ (60 :: 60 :: (showEnts (d.dict prev) ++ 62 :: 62 :: (10 ::
    (b!"startxref" ++ ([10] ++ (showNat (start + (showBody d.items).length) ++ ([10] ++ (b!"%%EOF" ++ [10]))))))))))))))

/-- Revisions, oldest first, one after the other. -/
def showDrafts : Nat → Option Nat → List Draft → Bytes
  | _, _, [] => []
  | start, prev, d :: ds =>
    d.show start prev ++ showDrafts (start + (d.show start prev).length) (some (start + (showBody d.items).length)) ds

def fileHeader : Bytes := b!"%PDF-1.7\n"

/-- A whole file. -/
def writeFile (ds : List Draft) : Bytes := fileHeader ++ showDrafts fileHeader.length none ds

/-- Revisions which can be written: at least one object each; the numbers of its objects differ, generations have at most five digits; no
object streams; keys of the trailer differ, and Prev is not among them. -/
structure Draft.Ok (d : Draft) : Prop where
  nonempty : d.items ≠ []
  vals : ∀ i ∈ d.items, WritableValue i.val
  plain : ∀ i ∈ d.items, ∀ e data, i.val = .stream e data → ∀ v, (b!"Type", v) ∈ e → v ∉ [.name b!"ObjStm", .hex b!"ObjStm", .token b!"ObjStm"]
  nums : (d.items.map (·.num)).Nodup
  gens : ∀ i ∈ d.items, i.gen < 10 ^ 5
  keys : (d.trailer.map (·.1)).Nodup
  ents : WritableEnts d.trailer
  noPrev : b!"Prev" ∉ d.trailer.map (·.1)

/-- What a sequence of revisions, oldest first, contains: the newest value of each object. -/
def contentOf (ds : List Draft) (n g : Nat) : Option Obj :=
  ds.reverse.findSome? fun d => (d.items.find? fun i => i.num == n && i.gen == g).map (·.val)

/-! ### Files with an object stream and a cross-reference stream -/

/-- The entries of objects written from offset `off` on. -/
def entsOf : Nat → List FileItem → List (Nat × Ent)
  | _, [] => []
  | off, i :: is => (i.num, ⟨off, i.gen, true⟩) :: entsOf (off + (showItem i).length + 1) is

/-- A document: objects written by themselves, objects to be put into one object stream, the numbers of the object stream and of the
cross-reference stream, the entries of the trailer; and how these two streams are encoded: the entries Filter and DecodeParms, and the
encoder. -/
structure Compressed where
  how : List (Bytes × Obj)
  encode : Bytes → Bytes
  items : List FileItem
  members : List (Nat × Obj)
  pack : Nat
  xref : Nat
  trailer : List (Bytes × Obj)

/-- The members, a line each. -/
def showMembers : List (Nat × Obj) → Bytes
  | [] => []
  | m :: ms => showObj m.2 ++ (10 :: showMembers ms)

/-- Numbers and offsets of the members. -/
def showDirectory : Nat → List (Nat × Obj) → Bytes
  | _, [] => []
  | off, m :: ms => [10] ++ (showNat m.1 ++ ([32] ++ (showNat off ++ showDirectory (off + (showObj m.2).length + 1) ms)))

namespace Compressed

def packData (c : Compressed) : Bytes := showDirectory 0 c.members ++ (10 :: showMembers c.members)

def packDict (c : Compressed) : List (Bytes × Obj) :=
  [(b!"Type", .name b!"ObjStm"), (b!"N", .int c.members.length), (b!"First", .int ((showDirectory 0 c.members).length + 1 : Nat)),
    (b!"Length", .int (c.encode c.packData).length)] ++ c.how

/-- The object stream. -/
def packItem (c : Compressed) : FileItem :=
  ⟨c.pack, 0, .stream c.packDict (c.encode c.packData)⟩

def body (c : Compressed) : List FileItem := c.items ++ [c.packItem]

/-- Where the cross-reference stream begins. -/
def offset (c : Compressed) : Nat := fileHeader.length + (showBody c.body).length

/-- The objects which are written by themselves, with offset and generation. -/
def positions (c : Compressed) : List (Nat × Ent) := entsOf fileHeader.length c.body ++ [(c.xref, ⟨c.offset, 0, true⟩)]

def row (c : Compressed) (n : Nat) : Row :=
  match c.positions.find? fun e => e.1 == n with
  | some e => ⟨1, e.2.offset, e.2.gen⟩
  | none => if n ∈ c.members.map (·.1) then ⟨2, c.pack, c.members.findIdx fun m => m.1 == n⟩ else ⟨0, 0, 0⟩

/-- One more than the largest number. -/
def size (c : Compressed) : Nat := (c.items.map (·.num) ++ (c.members.map (·.1) ++ [c.pack, c.xref])).foldl max 0 + 1

def rows (c : Compressed) : List Row := (List.range c.size).map c.row

def xrefData (c : Compressed) : Bytes := c.rows.flatMap (Row.text 1 4 4)

def xrefDict (c : Compressed) : List (Bytes × Obj) :=
  [(b!"Type", .name b!"XRef"), (b!"W", .arr [.int 1, .int 4, .int 4]), (b!"Length", .int (c.encode c.xrefData).length), (b!"Size", .int c.size)] ++ (c.how ++ c.trailer)

/-- The cross-reference stream. -/
def xrefItem (c : Compressed) : FileItem := ⟨c.xref, 0, .stream c.xrefDict (c.encode c.xrefData)⟩

/-- The whole file. -/
def write (c : Compressed) : Bytes :=
  fileHeader ++ (showBody (c.body ++ [c.xrefItem]) ++ (b!"startxref" ++ ([10] ++ (showNat c.offset ++ ([10] ++ (b!"%%EOF" ++ [10]))))))

/-- Documents which can be written: the numbers of all objects differ; no other object streams, integers are no members; numbers
and offsets fit in four bytes; keys of the trailer differ and are not those which the writer adds, nor Index and Prev. -/
structure Ok (c : Compressed) : Prop where
  vals : ∀ i ∈ c.items, WritableValue i.val
  plain : ∀ i ∈ c.items, ∀ e data, i.val = .stream e data → ∀ v, (b!"Type", v) ∈ e → v ∉ [.name b!"ObjStm", .hex b!"ObjStm", .token b!"ObjStm"]
  mems : ∀ m ∈ c.members, Writable m.2 ∧ ∀ n, m.2 ≠ .int n
  nums : (c.items.map (·.num) ++ (c.members.map (·.1) ++ [c.pack, c.xref])).Nodup
  gens : ∀ i ∈ c.items, i.gen < 256 ^ 4
  count : c.members.length < 256 ^ 4
  number : c.pack < 256 ^ 4
  length : c.write.length < 256 ^ 4
  keys : (c.trailer.map (·.1)).Nodup
  ents : WritableEnts c.trailer
  reserved : ∀ k ∈ [b!"Type", b!"W", b!"Length", b!"Size", b!"Index", b!"Prev", b!"Filter", b!"DecodeParms"], k ∉ c.trailer.map (·.1)
  howKeys : (c.how.map (·.1)).Nodup
  howOnly : ∀ k ∈ c.how.map (·.1), k ∈ [b!"Filter", b!"DecodeParms"]
  howEnts : WritableEnts c.how

/-- What it contains. -/
def content (c : Compressed) (n g : Nat) : Option Obj :=
  match (c.body ++ [c.xrefItem]).find? fun i => i.num == n && i.gen == g with
  | some i => some i.val
  | none => if g = 0 then (c.members.find? fun m => m.1 == n).map (·.2) else none

end Compressed

/-! ### Hybrid-reference files -/

/-- The same document with a cross-reference table (7.5.8.4): the table lists the objects written by themselves, with the object stream and the
cross-reference stream; the trailer names the latter with the entry XRefStm. -/
def hybrid (c : Compressed) : Draft :=
  { items := c.body ++ [c.xrefItem], trailer := c.trailer ++ [(b!"Size", .int c.size), (b!"XRefStm", .int c.offset)] }

/-- The whole file. -/
def writeHybrid (c : Compressed) : Bytes := writeFile [hybrid c]

end PdfReader.Spec
