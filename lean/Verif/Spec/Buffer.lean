/-
  Specification of the reader: a position in the file.
-/
import Verif.Model.Buffer

namespace PdfReader.Spec

/-- The byte of `file` at position `p`, end of file outside. -/
def byteAt (file : Bytes) (p : Int) : Got :=
  if p < 0 then .eof else match file[p.toNat]? with | some c => .byte c | none => .eof

/-- A cursor: position, where reading was last opened (`base`, first byte of the block loaded then)
and the end of that block (`top`). -/
structure Cur where
  pos : Int
  base : Nat
  top : Nat

structure CurSt where
  cur : Cur
  saved : List Cur := []

/-- Opening at an absolute offset. -/
def Cur.open (file : Bytes) (bs off : Nat) : Cur :=
  { pos := off, base := off, top := min (off + bs) file.length }

/-- Opening `k` bytes before the end: the position is the last byte. -/
def Cur.openTail (file : Bytes) (k : Nat) : Cur :=
  { pos := (file.length : Int) - 1, base := file.length - k, top := file.length }

/-- What a client expects: direct access to the file at the position. -/
def curStep (file : Bytes) (bs : Nat) (s : CurSt) : BufOp → CurSt × Option Got
  | .current => (s, some (byteAt file s.cur.pos))
  | .next => ({ s with cur := { s.cur with pos := s.cur.pos + 1 } }, some (byteAt file s.cur.pos))
  | .prev => ({ s with cur := { s.cur with pos := s.cur.pos - 1 } }, some (byteAt file s.cur.pos))
  | .reset off => ({ s with cur := Cur.open file bs off }, none)
  | .resetTail k => ({ s with cur := Cur.openTail file k }, none)
  | .save => ({ s with saved := s.saved ++ [s.cur] }, none)
  | .restore i => ({ s with cur := (s.saved[i]?).getD s.cur }, none)

/-- Every operation of the client run satisfies `legal` (evaluated on the specification side). -/
def Follows (file : Bytes) (bs : Nat) (legal : CurSt → BufOp → Prop) (client : Client) :
    Nat → CurSt → List (Option Got) → Prop
  | 0, _, _ => True
  | n + 1, s, h =>
    match client h with
    | none => True
    | some op => legal s op ∧
        Follows file bs legal client n (curStep file bs s op).1 (h ++ [(curStep file bs s op).2])

/-- Forward discipline: never step back before the opening offset (tails no longer than a block). -/
def ForwardLegal (file : Bytes) (bs : Nat) (s : CurSt) : BufOp → Prop
  | .prev => (s.cur.base : Int) < s.cur.pos
  | .resetTail k => 1 ≤ k ∧ k ≤ bs ∧ file ≠ []
  | .restore i => i < s.saved.length
  | _ => True

/-- Backward discipline: open inside the file and never move up to the end of the opening block. -/
def BackwardLegal (file : Bytes) (s : CurSt) : BufOp → Prop
  | .next => s.cur.pos + 1 < s.cur.top
  | .reset off => off < file.length
  | .restore i => i < s.saved.length
  | _ => True

end PdfReader.Spec
