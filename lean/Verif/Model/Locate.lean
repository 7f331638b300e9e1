/-
  Resolution of indirect references: pdfreader/registry.py, parsers/objstm.py and the class
  RegistryPDFParser of parsers/document.py (lines 413-637).
-/
import Verif.Model.Document

namespace PdfReader

/-- Number and generation. -/
abbrev Key := Nat × Nat

/-- `known_indirect_objects.get(key)`, registry.py:33-35. -/
def regGet : List (Key × Obj) → Key → Option Obj
  | [], _ => none
  | (k', v) :: es, k => if k' = k then some v else regGet es k

/-- The mutable state of the parser: registry.py:12-17 and document.py:421-423. The position of the buffer
is no part of it: `_stream` restores it (document.py:617-619), `locate_object_by_xref` and
`next_brute_force_object` set it before reading. The order of the lookup stack is irrelevant. -/
structure St where
  reg : List (Key × Obj)
  bf : Nat
  stack : List Key
  deriving DecidableEq, Repr

/-- What does not change after opening. -/
structure Env where
  file : Bytes
  /-- `self.trailer.xrefs`, newest first -/
  xrefs : List XRef
  /-- `Stream.filtered`, types/native.py:105-110 -/
  filtered : List (Bytes × Obj) → Bytes → Res Bytes
  /-- `decrypt_indirect_object_if_necessary`, document.py:444-449 -/
  dec : Nat → Nat → Obj → Res Obj := fun _ _ v => .ok v
  /-- The offset at which the parser stands when `BruteForceRecursion` arrives at
  `next_brute_force_object`, given the state before and the offset of the body element (document.py:541-543);
  not modelled further: every theorem holds for every choice. -/
  seek : St → Nat → Nat := fun _ off => off

/-- `dict[key] = val`, registry.py:24. The key is not registered yet. -/
def St.put (s : St) (k : Key) (v : Obj) : St := { s with reg := (k, v) :: s.reg }

/-- A computation on the state; changes survive exceptions. -/
abbrev M (α : Type) := St → Res α × St

/-- `integers` of an object stream, objstm.py:9-12: `n` numbers. -/
def objStmInts : Nat → Bytes → Res (List Nat)
  | 0, _ => .ok []
  | n + 1, inp =>
    match skipSC false inp with
    | .error e => .error e
    | .ok r =>
      match nonNegInt r with
      | .error e => .error e
      | .ok (k, r1) =>
        match objStmInts n r1 with
        | .error e => .error e
        | .ok ks => .ok (k :: ks)

/-- `integers[2 * j: 2 * j + 2]` for `j` in order, objstm.py:14-15. -/
def pairs : List Nat → List (Nat × Nat)
  | a :: b :: r => (a, b) :: pairs r
  | _ => []

/-- `range(2 * N)`: an int (negative counts are empty), a bool, else TypeError. -/
def countOf : Obj → Res Nat
  | .int n => .ok n.toNat
  | .bool b => .ok b.toNat
  | _ => .error .typeError

/-- `first_offset + offset` and `reset`, objstm.py:16: a negative position is a ValueError of `seek`. A `First`
which is no integer is a TypeError (a real one would fail in `seek`). -/
def memberPos (first : Obj) (off : Nat) : Res Nat :=
  match first with
  | .int n => if n + off < 0 then .error .valueError else .ok (n + off).toNat
  | .bool b => .ok (b.toNat + off)
  | _ => .error .typeError

/-- One object of an object stream, objstm.py:16-17: the parser is a BasicTypesParser. -/
def member (data : Bytes) (first : Obj) (off : Nat) : Res Obj :=
  match memberPos first off with
  | .error e => .error e
  | .ok p =>
    match parseObject fileCfg (data.drop p) with
    | .error e => .error e
    | .ok (v, _) => if isValue v then .ok v else .error .assertion

/-- The directory of an object stream: `filtered`, `First`, `N` and the pairs (number, offset),
registry.py:41-43, objstm.py:8-15. -/
def objStmDir (filtered : List (Bytes × Obj) → Bytes → Res Bytes) (d : List (Bytes × Obj)) (raw : Bytes) :
    Res (Bytes × Obj × List (Nat × Nat)) :=
  match filtered d raw with
  | .error e => .error e
  | .ok data =>
    match dictGet d b!"First" with
    | none => .error .keyError
    | some first =>
      match dictGet d b!"N" with
      | none => .error .keyError
      | some n =>
        match countOf n with
        | .error e => .error e
        | .ok k =>
          match objStmInts (2 * k) data with
          | .error e => .error e
          | .ok ks => .ok (data, first, pairs ks)

/-- `isinstance(obj.val, Stream) and obj.val.get("Type") == "ObjStm"`, registry.py:28-29. -/
def isObjStm : Obj → Bool
  | .stream d _ => isText ((dictGet d b!"Type").getD .null) b!"ObjStm"
  | _ => false

/-- `tok[6:] … while token != b"endobj"` and the blanks after it, `skip_until_next_indirect_object`,
document.py:588-595: the offset after the next `endobj`. -/
def nextObject (file : Bytes) (off : Nat) : Res Nat :=
  match splitOn1 b!"endobj" (file.drop off) with
  | none => .error .typeError
  | some (_, r) =>
    match skipSC false r with
    | .error e => .error e
    | .ok r1 => .ok (file.length - r1.length)

/-- The resolution of an indirect Length during one parse: answers already known, else ask. -/
def askCfg (known : List (Key × Obj)) : Cfg :=
  { refs := true, len := some (fun n g => match regGet known (n, g) with | some v => .ok v | none => .error (.need n g)) }

mutual
/-- `Registry.register(obj)`, registry.py:22-31 (nobody passes `force`): the first definition wins. -/
def register (env : Env) : Nat → Nat → Nat → Obj → M Unit
  | 0, _, _, _, s => (.error .diverges, s)
  | fuel + 1, num, gen, val, s =>
    match regGet s.reg (num, gen) with
    | some _ => (.ok (), s)
    | none =>
      let s1 := s.put (num, gen) val
      match val with
      | .stream d raw =>
        if isObjStm val then
          match objStmDir env.filtered d raw with
          | .error e => (.error e, s1)
          | .ok (data, first, ms) => registerAll env fuel data first ms s1
        else (.ok (), s1)
      | _ => (.ok (), s1)

/-- `for obj in parser.objects(…): self.register(obj)`, registry.py:43-45: generation 0. -/
def registerAll (env : Env) : Nat → Bytes → Obj → List (Nat × Nat) → M Unit
  | 0, _, _, _, s => (.error .diverges, s)
  | _ + 1, _, _, [], s => (.ok (), s)
  | fuel + 1, data, first, (num, off) :: ms, s =>
    match member data first off with
    | .error e => (.error e, s)
    | .ok v =>
      match register env fuel num 0 v s with
      | (.error e, s1) => (.error e, s1)
      | (.ok (), s1) => registerAll env fuel data first ms s1

/-- `PDFParser.indirect_object` with the `_stream` of RegistryPDFParser (document.py:63-87, 611-622) at an offset.
A stream whose Length is a reference asks `locate_object`; the model starts the parse again with
the answer. Simplification: the same reference needed twice within one object is located once. -/
def parseAt (env : Env) : Nat → List (Key × Obj) → Nat → M ((Nat × Nat × Obj) × Bytes)
  | 0, _, _, s => (.error .diverges, s)
  | fuel + 1, known, off, s =>
    match indirectObject (askCfg known) (env.file.drop off) with
    | .error (.need n g) =>
      match locate env fuel n g s with
      | (.error e, s1) => (.error e, s1)
      | (.ok v, s1) => parseAt env fuel (((n, g), v) :: known) off s1
    | .error e => (.error e, s)
    | .ok x => (.ok x, s)

/-- `RegistryPDFParser.indirect_object`, document.py:624-629: the offset after the object. -/
def objectAt (env : Env) : Nat → Nat → M Nat
  | 0, _, s => (.error .diverges, s)
  | fuel + 1, off, s =>
    match parseAt env fuel [] off s with
    | (.error e, s1) => (.error e, s1)
    | (.ok ((num, gen, v), r), s1) =>
      match env.dec num gen v with
      | .error e => (.error e, s1)
      | .ok w =>
        match register env fuel num gen w s1 with
        | (.error e, s2) => (.error e, s2)
        | (.ok (), s2) => (.ok (env.file.length - r.length), s2)

/-- `body_element`, document.py:275-287. `self.trailer` is no longer the method but the PDFTrailer, which
cannot be called: TypeError. -/
def bodyElement (env : Env) : Nat → Nat → M Nat
  | 0, _, s => (.error .diverges, s)
  | fuel + 1, off, s =>
    match env.file.drop off with
    | [] => (.error .parser, s)
    | c :: r =>
      if isDigit c then objectAt env fuel off s
      else if c = 115 then
        match startxrefP (c :: r) with
        | .error e => (.error e, s)
        | .ok (_, r1) => (.ok (env.file.length - r1.length), s)
      else if c = 116 then (.error .typeError, s)
      else (.error .parser, s)

/-- The loop of `next_brute_force_object`, document.py:533-548: the position to store. -/
def bruteLoop (env : Env) : Nat → List Nat → Option Nat → Nat → M Nat
  | 0, _, _, _, s => (.error .diverges, s)
  | _ + 1, [], deepest, last, s => (.ok (deepest.getD last), s)
  | fuel + 1, t :: ts, deepest, last, s =>
    match skipSC false (env.file.drop t) with
    | .error e => (.error e, s)
    | .ok r =>
      let off := env.file.length - r.length
      match bodyElement env fuel off s with
      | (.error .recursion, s1) =>
        match nextObject env.file (env.seek s off) with
        | .error e => (.error e, s1)
        | .ok p => bruteLoop env fuel (p :: t :: ts) (some p) last s1
      | (.error e, s1) => (.error e, s1)
      | (.ok p, s1) => bruteLoop env fuel ts deepest p s1

/-- The `while` loop of `locate_object`, document.py:505-521. -/
def bruteForce (env : Env) : Nat → Nat → Nat → M Obj
  | 0, _, _, s => (.error .diverges, s)
  | fuel + 1, num, gen, s =>
    match regGet s.reg (num, gen) with
    | some v => (.ok v, s)
    | none =>
      if (num, gen) ∈ s.stack then (.error .recursion, s)
      else
        match bruteLoop env fuel [s.bf] none s.bf { s with stack := (num, gen) :: s.stack } with
        | (.error .parser, s1) =>
          -- registered as null unless the failed attempt has registered it
          match regGet s1.reg (num, gen) with
          | some v => (.ok v, { s1 with stack := s.stack })
          | none => (.ok .null, { s1.put (num, gen) .null with stack := s.stack })
        | (.error e, s1) => (.error e, { s1 with stack := s.stack })
        | (.ok p, s1) => bruteForce env fuel num gen { s1 with bf := p, stack := s.stack }

/-- `locate_object_by_xref`, document.py:456-480. A compressed entry is stored under its own number, so
`xre.number != num` never holds and the branch for compressed objects does nothing (types/xref.py:60-68, 92,
155). Only ParserException is ignored. -/
def byXref (env : Env) : Nat → Nat → Nat → List XRef → M (Option Obj)
  | 0, _, _, _, s => (.error .diverges, s)
  | _ + 1, num, gen, [], s => (.ok (regGet s.reg (num, gen)), s)
  | fuel + 1, num, gen, x :: xs, s =>
    match natGet x.inUse num with
    | none => byXref env fuel num gen xs s
    | some e =>
      if e.gen = gen then
        match objectAt env fuel e.offset s with
        | (.error .parser, s1) =>
          match regGet s1.reg (num, gen) with
          | some v => (.ok (some v), s1)
          | none => byXref env fuel num gen xs s1
        | (.error er, s1) => (.error er, s1)
        | (.ok _, s1) =>
          match regGet s1.reg (num, gen) with
          | some v => (.ok (some v), s1)
          | none => byXref env fuel num gen xs s1
      else byXref env fuel num gen xs s

/-- `locate_object`, document.py:483-521: a registered value is delivered at once only when it counts as
true. -/
def locate (env : Env) : Nat → Nat → Nat → M Obj
  | 0, _, _, s => (.error .diverges, s)
  | fuel + 1, num, gen, s =>
    match regGet s.reg (num, gen) with
    | some v =>
      if truthy v then (.ok v, s)
      else
        match byXref env fuel num gen env.xrefs s with
        | (.error e, s1) => (.error e, s1)
        | (.ok _, s1) => bruteForce env fuel num gen s1
    | none =>
      match byXref env fuel num gen env.xrefs s with
      | (.error e, s1) => (.error e, s1)
      | (.ok _, s1) => bruteForce env fuel num gen s1
end

/-- The cross-reference streams which `pdf_trailer` registers on its way, document.py:196-206, 441-442: newest first, the first definition of a
number wins. No handler decrypts yet. -/
def openReg (file : Bytes) : Nat → Nat → List (Key × Obj) → List (Key × Obj)
  | 0, _, reg => reg
  | fuel + 1, off, reg =>
    match indirectObject openCfg (file.drop off) with
    | .error _ => reg
    | .ok ((n, g, v), _) =>
      let reg' := match regGet reg (n, g) with | some _ => reg | none => ((n, g), v) :: reg
      match v with
      | .stream d _ =>
        match prevStreamOffset (dictGet d b!"Prev") with
        | .ok (some p) => openReg file fuel p reg'
        | _ => reg'
      | _ => reg'

/-- What opening yields: the attributes `header` and `trailer` of the parser, and the parser. -/
structure Opened where
  version : Bytes
  trailer : List (Bytes × Obj)
  env : Env
  st : St

/-- The trailer of a file whose newest section is a cross-reference stream, document.py:190-199: these six entries, None if
absent. -/
def streamTrailer (d : List (Bytes × Obj)) : List (Bytes × Obj) :=
  [b!"Size", b!"Prev", b!"Root", b!"Encrypt", b!"Info", b!"ID"].map fun k => (k, (dictGet d k).getD .null)

/-- `RegistryPDFParser.__init__`, document.py:415-423, before a security handler is set. -/
def openDoc (filtered : List (Bytes × Obj) → Bytes → Res Bytes) (clamps : Bool) (fuel : Nat) (file : Bytes) : Res Opened :=
  match pdfHeader file with
  | .error e => .error e
  | .ok (v, off) =>
    match xrefOffset clamps file with
    | .error e => .error e
    | .ok x =>
      match chain (sections filtered file x) fuel x with
      | .error e => .error e
      | .ok (xs, d) =>
        let table : Bool := (file.drop x).head? = some 120
        .ok { version := v, trailer := if table then d else streamTrailer d, env := { file := file, xrefs := xs, filtered := filtered },
              st := { reg := if table then [] else openReg file fuel x [], bf := off, stack := [] } }

end PdfReader
