/-
  Specification of the file structure (ISO 32000-1, 7.5): header, startxref, cross-reference tables and
  streams. It refers to the model of the code only for the types of bytes and objects.
-/
import Verif.Spec.Grammar

namespace PdfReader.Spec

/-- `Version v`: a digit, a point, a digit. -/
def Version (v : Bytes) : Prop := ∃ a b, Digit a ∧ Digit b ∧ v = [a, 46, b]

/-- `Hdr v h`: `h` is a header declaring version `v`, in either form. -/
inductive Hdr : Bytes → Bytes → Prop
  | pdf (v : Bytes) : Version v → Hdr v (b!"%PDF-" ++ v)
  | ips (u v : Bytes) : Version u → Version v → Hdr v (b!"%IPS-Adobe-" ++ (u ++ (b!" PDF-" ++ v)))

/-- Nothing, or something that ends with a line feed. -/
def LineStart (junk : Bytes) : Prop := junk = [] ∨ ∃ a, junk = a ++ [10]

/-- `pat` occurs in `s` at offset `k`. -/
def OccursAt (pat s : Bytes) (k : Nat) : Prop := ∃ a b, s = a ++ (pat ++ b) ∧ a.length = k

/-- One entry of a cross-reference table. -/
structure Ent where
  offset : Nat
  gen : Nat
  inUse : Bool
  deriving DecidableEq, Repr

/-- Entries are written as `nnnnnnnnnn ggggg n` or `f` and a two-character line end: 20 bytes. -/
inductive EntText : Ent → Bytes → Prop
  | mk (ds gs : Bytes) (use : Bool) (eol : Bytes) : Digits ds → ds.length = 10 → Digits gs → gs.length = 5 →
      eol ∈ ([[32, 13], [32, 10], [13, 10]] : List Bytes) →
      EntText ⟨decVal ds, decVal gs, use⟩ (ds ++ (32 :: (gs ++ (32 :: ((if use then 110 else 102) :: eol)))))

inductive EntsText : List Ent → Bytes → Prop
  | nil : EntsText [] []
  | cons (e : Ent) (es : List Ent) (t u : Bytes) : EntText e t → EntsText es u → EntsText (e :: es) (t ++ u)

/-- Line ends. -/
def EolText (t : Bytes) : Prop := t ∈ ([[13], [10], [13, 10]] : List Bytes)

/-- A subsection: number of its first object and its entries. -/
inductive SubText : Nat → List Ent → Bytes → Prop
  | mk (fs ns eol : Bytes) (es : List Ent) (u : Bytes) : Digits fs → Digits ns → EolText eol →
      decVal ns = es.length → EntsText es u → (eol = [13] → NotStart (· = 10) u) →
      SubText (decVal fs) es (fs ++ (32 :: (ns ++ (eol ++ u))))

inductive SubsText : List (Nat × List Ent) → Bytes → Prop
  | nil : SubsText [] []
  | cons (n : Nat) (es : List Ent) (subs : List (Nat × List Ent)) (t u : Bytes) : SubText n es t →
      SubsText subs u → SubsText ((n, es) :: subs) (t ++ u)

/-- The entries of a list of subsections with their object numbers: entry `i` of a subsection starting at
`n` has number `n + i`. -/
def numberFrom : Nat → List Ent → List (Nat × Ent)
  | _, [] => []
  | n, e :: es => (n, e) :: numberFrom (n + 1) es

def numbered (subs : List (Nat × List Ent)) : List (Nat × Ent) :=
  subs.flatMap (fun s => numberFrom s.1 s.2)

/-- The last entry with number `n` which is in use (or free). -/
def lastEnt (es : List (Nat × Ent)) (use : Bool) (n : Nat) : Option (Nat × Nat) :=
  (es.reverse.find? (fun e => e.1 == n && e.2.inUse == use)).map (fun e => (e.2.offset, e.2.gen))

/-- A row of a cross-reference stream: type and two fields. -/
structure Row where
  typ : Nat
  f1 : Nat
  f2 : Nat
  deriving DecidableEq, Repr

/-- Big-endian bytes of length `w`. -/
def beBytes : Nat → Nat → Bytes
  | 0, _ => []
  | w + 1, n => UInt8.ofNat (n / 256 ^ w) :: beBytes w (n % 256 ^ w)

/-- The row fits the widths. -/
def Row.Fits (r : Row) (w0 w1 w2 : Nat) : Prop := r.typ < 256 ^ w0 ∧ r.f1 < 256 ^ w1 ∧ r.f2 < 256 ^ w2

/-- Text of a row. -/
def Row.text (w0 w1 w2 : Nat) (r : Row) : Bytes := beBytes w0 r.typ ++ (beBytes w1 r.f1 ++ beBytes w2 r.f2)

/-- Texts of the value of an indirect object: an object, or a stream with a direct and correct Length. -/
inductive ValText : Obj → Bytes → Prop
  | obj (o : Obj) (t : Bytes) : Den true (.obj o) t → ValText o t
  | stream (raw : List (Bytes × Obj)) (u s nl data w : Bytes) : Den true (.ents raw) u → Sep s → nl = [10] ∨ nl = [13, 10] →
      (∀ c ∈ w, WS c) → lastVal raw (b!"Length") = some (.int data.length) →
      ValText (.stream (dictOf raw) data)
        (60 :: 60 :: (u ++ 62 :: 62 :: (s ++ (b!"stream" ++ (nl ++ (data ++ (w ++ b!"endstream")))))))

/-- Texts of an indirect object: `n g obj value endobj`. -/
inductive IndText : Nat → Nat → Obj → Bytes → Prop
  | mk (ns gs s₁ s₂ s₃ s₄ : Bytes) (o : Obj) (t : Bytes) : Digits ns → Digits gs → Sep s₁ → s₁ ≠ [] → Sep s₂ → s₂ ≠ [] →
      Sep s₃ → ValText o t → Sep s₄ → (needsStop o = true → s₄ ≠ []) →
      IndText (decVal ns) (decVal gs) o
        (ns ++ (s₁ ++ (gs ++ (s₂ ++ (b!"obj" ++ (s₃ ++ (t ++ (s₄ ++ b!"endobj"))))))))

/-- A sequence of indirect objects with any separators before, between and after them. -/
inductive BodyText : List (Nat × Nat × Obj) → Bytes → Prop
  | nil (s : Bytes) : Sep s → BodyText [] s
  | cons (n g : Nat) (o : Obj) (es : List (Nat × Nat × Obj)) (s t u : Bytes) : Sep s → IndText n g o t → BodyText es u →
      BodyText ((n, g, o) :: es) (s ++ (t ++ u))

/-- The directory of an object stream: pairs (object number, offset). -/
inductive DirText : List (Nat × Nat) → Bytes → Prop
  | nil : DirText [] []
  | cons (s ns s₁ os : Bytes) (ms : List (Nat × Nat)) (u : Bytes) : Sep s → Digits ns → Sep s₁ → s₁ ≠ [] → Digits os → Stop u →
      DirText ms u → DirText ((decVal ns, decVal os) :: ms) (s ++ (ns ++ (s₁ ++ (os ++ u))))

/-- The object at offset `p` of `data` is `o`. -/
def ObjectAt (data : Bytes) (p : Nat) (o : Obj) : Prop :=
  ∃ s₀ t s r, data.drop p = s₀ ++ (t ++ (s ++ r)) ∧ Sep s₀ ∧ Den true (.obj o) t ∧ Follow true o s r

end PdfReader.Spec
