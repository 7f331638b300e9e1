/-
  Specification of a whole file (ISO 32000-1, 7.5): header, cross-reference sections linked by `Prev`, `startxref`, and the indirect objects
  at the offsets listed. It refers to the model of the code only for the types of bytes and objects and dictionary lookup.
-/
import Verif.Spec.Document

namespace PdfReader.Spec

/-- The first header of the file begins at offset `k`, at the beginning of a line and within the first 1024 bytes, and declares version `v`. -/
def HeaderAt (file v : Bytes) (k : Nat) : Prop :=
  ∃ junk h rest, file = junk ++ (h ++ rest) ∧ junk.length = k ∧ Hdr v h ∧ LineStart junk ∧
    (∀ a h' b v', file = a ++ (h' ++ b) → Hdr v' h' → k ≤ a.length) ∧ k + h.length ≤ 1024 ∧ 22 ≤ file.length

/-- The number after the last `startxref` before the last `%%EOF` is `off`; `%%EOF` is within the last 1023 bytes. -/
def StartsAt (file : Bytes) (off : Nat) : Prop :=
  ∃ body s ds r tail, file = body ++ (b!"startxref" ++ (s ++ (ds ++ (r ++ (b!"%%EOF" ++ tail))))) ∧ body ≠ [] ∧ Sep s ∧ Digits ds ∧
    decVal ds = off ∧ NotStart (fun c => Digit c ∨ c = 46) (r ++ (b!"%%EOF" ++ tail)) ∧ tail.length ≤ 1018 ∧
    (∀ k, OccursAt (b!"%%EOF") file k → k ≤ (body ++ (b!"startxref" ++ (s ++ (ds ++ r)))).length) ∧
    (∀ k, OccursAt (b!"startxref") file k → k + 9 ≤ (body ++ (b!"startxref" ++ (s ++ (ds ++ r)))).length → k ≤ body.length)

/-- What a section says: the objects in use with offset and generation, and the trailer dictionary; and the indirect object it is itself, if
it is a stream. -/
structure Revision where
  inUse : Nat → Option (Nat × Nat)
  dict : List (Bytes × Obj)
  own : Option (Nat × Nat × Obj)

/-- At offset `off` there is a cross-reference table followed by a trailer dictionary. -/
def TableAt (file : Bytes) (off : Nat) (r : Revision) : Prop :=
  ∃ s subs u s₁ s₂ raw t rest,
    file.drop off = b!"xref" ++ (s ++ (u ++ (s₁ ++ (b!"trailer" ++ (s₂ ++ (60 :: 60 :: (t ++ 62 :: 62 :: rest))))))) ∧
    Sep s ∧ SubsText subs u ∧ subs ≠ [] ∧ ((∃ a n, subs = a ++ [(n, [])]) → NotStart (· = 10) s₁) ∧ Sep s₁ ∧ Sep s₂ ∧
    Den true (.ents raw) t ∧ r.dict = dictOf raw ∧ r.own = none ∧ ∀ n, r.inUse n = lastEnt (numbered subs) true n

/-- At offset `off` there is a cross-reference stream, whose decoded data (`decoded` tells what the data of a
stream decode to) are rows of the widths given by `W`, for the objects from `first` on (`Index` is one range, or absent). -/
def XRefStreamAt (decoded : List (Bytes × Obj) → Bytes → Bytes → Prop) (file : Bytes) (off : Nat) (r : Revision) : Prop :=
  ∃ (num gen : Nat) (raw t rest : Bytes) (first w0 w1 w2 : Nat) (rows : List Row), r.own = some (num, gen, .stream r.dict raw) ∧ IndText num gen (.stream r.dict raw) t ∧ file.drop off = t ++ rest ∧
    dictGet r.dict b!"Type" = some (.name b!"XRef") ∧
    ((∃ cnt, dictGet r.dict (b!"Index") = some (.arr [.int first, cnt])) ∨
      (dictGet r.dict (b!"Index") = none ∧ first = 0 ∧ ∃ sz, dictGet r.dict (b!"Size") = some sz)) ∧
    dictGet r.dict (b!"W") = some (.arr [.int w0, .int w1, .int w2]) ∧ 0 < w0 + w1 + w2 ∧
    (∀ row ∈ rows, Row.Fits row w0 w1 w2) ∧ decoded r.dict raw (rows.flatMap (Row.text w0 w1 w2)) ∧
    (∀ i (h : i < rows.length), r.inUse (first + i) = if rows[i].typ = 1 then some (rows[i].f1, rows[i].f2) else none) ∧
    (∀ n, n < first ∨ first + rows.length ≤ n → r.inUse n = none)

/-- The sections of a file, newest first: each names the offset of the previous one as `Prev`, the oldest names none. -/
inductive Updates (sec : Nat → Revision → Prop) : Nat → List Revision → Prop
  | oldest (off : Nat) (r : Revision) : sec off r → dictGet r.dict b!"Prev" = none → Updates sec off [r]
  | newer (off p : Nat) (r : Revision) (rs : List Revision) : sec off r → dictGet r.dict b!"Prev" = some (.int p) → 0 < p →
      Updates sec p rs → Updates sec off (r :: rs)

/-- The sections of `file`, all of them tables or all of them streams, beginning with the one at `off`. -/
def SectionsFrom (decoded : List (Bytes × Obj) → Bytes → Bytes → Prop) (file : Bytes) (off : Nat) (revs : List Revision) : Prop :=
  Updates (TableAt file) off revs ∨ Updates (XRefStreamAt decoded file) off revs

/-- The newest section which lists object `n`, generation `g`, in use has it at offset `off`. -/
def CurrentAt (revs : List Revision) (n g off : Nat) : Prop :=
  ∃ newer r older, revs = newer ++ r :: older ∧ (∀ q ∈ newer, ∀ off', q.inUse n ≠ some (off', g)) ∧ r.inUse n = some (off, g)

/-- What a document contains: the object with number and generation. -/
abbrev Content := Nat → Nat → Option Obj

/-- The text of a stream whose Length is a reference to `ln lg`, an integer. The dictionary of the stream is delivered with the integer in
place of the reference. -/
inductive LenText (ln lg : Nat) : Nat → Nat → Nat → Obj → Bytes → Prop
  | mk (ns gs s₁ s₂ s₃ s₄ : Bytes) (raw : List (Bytes × Obj)) (u s nl data w : Bytes) : Digits ns → Digits gs → Sep s₁ → s₁ ≠ [] → Sep s₂ → s₂ ≠ [] →
      Sep s₃ → Sep s₄ → Den true (.ents raw) u → Sep s → nl = [10] ∨ nl = [13, 10] → (∀ c ∈ w, WS c) →
      lastVal raw (b!"Length") = some (.ref ln lg) →
      LenText ln lg data.length (decVal ns) (decVal gs)
        (.stream ((dictOf raw).map fun e => if e.1 = b!"Length" then (e.1, .int data.length) else e) data)
        (ns ++ (s₁ ++ (gs ++ (s₂ ++ (b!"obj" ++ (s₃ ++
          ((60 :: 60 :: (u ++ 62 :: 62 :: (s ++ (b!"stream" ++ (nl ++ (data ++ (w ++ b!"endstream")))))))  ++ (s₄ ++ b!"endobj"))))))))

/-- `t` is the text of the indirect object `n g`; a Length may be a reference to an integer object which is listed in use. -/
def ObjText (file : Bytes) (revs : List Revision) (content : Content) (n g : Nat) (o : Obj) (t : Bytes) : Prop :=
  IndText n g o t ∨ ∃ ln lg len off t' rest, LenText ln lg len n g o t ∧ content ln lg = some (.int (len : Nat)) ∧ CurrentAt revs ln lg off ∧
    file.drop off = t' ++ rest ∧ IndText ln lg (.int (len : Nat)) t'

/-- No object stream. -/
def NoPack (o : Obj) : Prop :=
  ∀ d raw v, o = .stream d raw → dictGet d b!"Type" = some v → v ∉ [.name b!"ObjStm", .hex b!"ObjStm", .token b!"ObjStm"]

/-- The objects which an indirect object defines: itself and, if it is an object stream, its members. -/
inductive Defines (decoded : List (Bytes × Obj) → Bytes → Bytes → Prop) (n g : Nat) : Obj → List ((Nat × Nat) × Obj) → Prop
  | plain (o : Obj) : NoPack o → Defines decoded n g o [((n, g), o)]
  | pack (first : Nat) (d : List (Bytes × Obj)) (raw dir rest : Bytes) (ms : List (Nat × Nat)) (os : List Obj) :
      dictGet d b!"Type" = some (.name b!"ObjStm") → dictGet d b!"N" = some (.int ms.length) → dictGet d b!"First" = some (.int first) →
      decoded d raw (dir ++ rest) → DirText ms dir → Stop rest → ms.length = os.length →
      (∀ p ∈ ms.zip os, ObjectAt (dir ++ rest) (first + p.1.2) p.2) →
      Defines decoded n g (.stream d raw) (((n, g), .stream d raw) :: (ms.zip os).map fun p => ((p.1.1, 0), p.2))

/-- Nothing is encrypted: the objects of a document are written as they are. -/
def AsIs (_ _ : Nat) (o w : Obj) : Prop := w = o

/-- A sequence of indirect objects and `startxref` elements, with what each object defines. `written n g o w` tells that the object `n g` of
the document, `o`, may be written into the file as `w`; they differ if the document is encrypted. -/
inductive FileBody (decoded : List (Bytes × Obj) → Bytes → Bytes → Prop) (written : Nat → Nat → Obj → Obj → Prop) (file : Bytes) (revs : List Revision)
    (content : Content) : List (List ((Nat × Nat) × Obj)) → Bytes → Prop
  | nil : FileBody decoded written file revs content [] []
  | obj (n g : Nat) (o w : Obj) (defs : List ((Nat × Nat) × Obj)) (es) (s t u : Bytes) : Sep s → ObjText file revs content n g w t →
      written n g o w → content n g = some o → Defines decoded n g o defs → FileBody decoded written file revs content es u →
      FileBody decoded written file revs content (defs :: es) (s ++ (t ++ u))
  | startxref (es) (s s₁ ds u : Bytes) : Sep s → Sep s₁ → Digits ds → u ≠ [] → NotStart (fun c => Digit c ∨ c = 46) u →
      FileBody decoded written file revs content es u → FileBody decoded written file revs content es (s ++ (b!"startxref" ++ (s₁ ++ (ds ++ u))))

/-- `content` tells objects of the file, whose body begins at offset `start`: each is written where its newest entry says, or is listed by no
section and defined in the body. No object has two definitions: the members of the object streams, the sections themselves and the
objects of the body agree with `content`; which has finitely many objects. -/
structure Holds (decoded : List (Bytes × Obj) → Bytes → Bytes → Prop) (written : Nat → Nat → Obj → Obj → Prop) (file : Bytes) (start : Nat) (revs : List Revision) (content : Content) : Prop where
  body : ∃ es body tail, file.drop start = body ++ tail ∧ FileBody decoded written file revs content es body ∧ ∀ n g o, content n g = some o →
    (∃ off t rest w defs, CurrentAt revs n g off ∧ file.drop off = t ++ rest ∧ ObjText file revs content n g w t ∧ written n g o w ∧
      Defines decoded n g o defs) ∨
    ((∀ r ∈ revs, ∀ off, r.inUse n ≠ some (off, g)) ∧ ∃ e ∈ es, ((n, g), o) ∈ e)
  finite : ∃ all : List (Nat × Nat), ∀ n g, content n g ≠ none → (n, g) ∈ all
  packed : ∀ n g o defs, content n g = some o → Defines decoded n g o defs → ∀ d ∈ defs, content d.1.1 d.1.2 = some d.2
  own : ∀ r ∈ revs, ∀ n g v o, r.own = some (n, g, v) → content n g = some o → v = o

end PdfReader.Spec
