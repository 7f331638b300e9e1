/-
  The block buffer on a file object which others use as well: what each method of pdfreader/buffer.py does to the file object, call by call.
  Model/Buffer.lean has the same methods on the bytes of the file; here the position of the file object is part of the state.
-/
import Verif.Model.Buffer

namespace PdfReader

/-- A file object: its bytes and its position (`BytesIO`, or a file opened for reading). -/
structure FileObj where
  bytes : Bytes
  pos : Nat
  deriving DecidableEq, Repr

/-- The calls which a method makes to the file object, and its result. -/
inductive Calls (α : Type) where
  | done (a : α)
  /-- `fileobj.seek(off)` -/
  | seek (off : Nat) (k : Calls α)
  /-- `fileobj.seek(-back, os.SEEK_END)`, which returns the position (clamped at the start, as in Model/Buffer) -/
  | seekEnd (back : Nat) (k : Nat → Calls α)
  /-- `fileobj.read(n)` -/
  | read (n : Nat) (k : Bytes → Calls α)
  /-- `fileobj.read()` -/
  | readAll (k : Bytes → Calls α)

/-- One call to the file object. -/
def Calls.step {α : Type} (f : FileObj) : Calls α → FileObj × Calls α
  | .done a => (f, .done a)
  | .seek off k => ({ f with pos := off }, k)
  | .seekEnd back k => ({ f with pos := f.bytes.length - back }, k (f.bytes.length - back))
  | .read n k => ({ f with pos := f.pos + ((f.bytes.drop f.pos).take n).length }, k ((f.bytes.drop f.pos).take n))
  | .readAll k => ({ f with pos := f.pos + (f.bytes.drop f.pos).length }, k (f.bytes.drop f.pos))

/-- All calls of a method, with nobody else between them. -/
def Calls.run {α : Type} : Calls α → FileObj → FileObj × α
  | .done a, f => (f, a)
  | .seek off k, f => k.run { f with pos := off }
  | .seekEnd back k, f => (k (f.bytes.length - back)).run { f with pos := f.bytes.length - back }
  | .read n k, f => (k ((f.bytes.drop f.pos).take n)).run { f with pos := f.pos + ((f.bytes.drop f.pos).take n).length }
  | .readAll k, f => (k (f.bytes.drop f.pos)).run { f with pos := f.pos + (f.bytes.drop f.pos).length }

/-- `_read_forward` and then `k`, buffer.py:96-104 -/
def forwardCalls {α : Type} (bs : Nat) (b : Buf) (k : Option Buf → α) : Calls α :=
  .seek (b.lbo + bs) (.read bs fun d => .done (k (if d = [] then none else some { b with lbo := b.lbo + d.length, data := b.data ++ d })))

/-- `_read_backward` and then `k`, buffer.py:106-117: the position is set twice -/
def backwardCalls {α : Type} (bs : Nat) (b : Buf) (k : Option Buf → α) : Calls α :=
  if b.lbo = 0 then .done (k none)
  else
    .seek (b.lbo - min b.lbo bs) (.seek (b.lbo - min b.lbo bs) (.read (min b.lbo bs) fun d =>
      .done (k (some { lbo := b.lbo - min b.lbo bs, index := d.length + b.index, data := d ++ b.data }))))

/-- What `current` returns after a block was asked for, buffer.py:147-157 -/
def gotBlock (b : Buf) : Option Buf → Buf × Got
  | some b' => (b', b'.fetch)
  | none => (b, .eof)

/-- `current` and then `k`, buffer.py:147-157 -/
def currentCalls {α : Type} (bs : Nat) (b : Buf) (k : Buf × Got → α) : Calls α :=
  if (b.data.length : Int) ≤ b.index then forwardCalls bs b fun r => k (gotBlock b r)
  else if b.index < 0 then backwardCalls bs b fun r => k (gotBlock b r)
  else .done (k (b, b.fetch))

/-- The operations of a client of the buffer, buffer.py:119-183: `reset` reads a block, `set_state` sets the position of the file object. -/
def opCalls (bs : Nat) (s : BufSt) : BufOp → Calls (BufSt × Option Got)
  | .current => currentCalls bs s.buf fun r => ({ s with buf := r.1 }, some r.2)
  | .next => currentCalls bs s.buf fun r => ({ s with buf := (Buf.move 1 r).1 }, some (Buf.move 1 r).2)
  | .prev => currentCalls bs s.buf fun r => ({ s with buf := (Buf.move (-1) r).1 }, some (Buf.move (-1) r).2)
  | .reset off => .seek off (.read bs fun d => .done ({ s with buf := { lbo := off, index := 0, data := d } }, none))
  | .resetTail k => .seekEnd k fun p => .readAll fun d => .done ({ s with buf := { lbo := p, index := (d.length : Int) - 1, data := d } }, none)
  | .save => .done ({ s with saved := s.saved ++ [s.buf] }, none)
  | .restore i => .seek ((s.saved[i]?).getD s.buf).lbo (.done ({ s with buf := (s.saved[i]?).getD s.buf }, none))

/-- One file object, the buffers which read from it, and what their clients have seen. -/
structure World where
  file : FileObj
  bufs : Nat → BufSt
  seen : Nat → List (Option Got)

/-- Whose turn it is: the client of a buffer makes its next call, or the application itself moves the position of the file object (by seeking or
reading). -/
inductive Turn where
  | use (i : Nat)
  | move (pos : Nat)
  deriving DecidableEq, Repr

/-- One turn. `bs i` is the block size of buffer `i`. -/
def World.turn (bs : Nat → Nat) (clients : Nat → Client) (w : World) : Turn → World
  | .move p => { w with file := { w.file with pos := p } }
  | .use i =>
    match clients i (w.seen i) with
    | none => w
    | some op =>
      let r := (opCalls (bs i) (w.bufs i) op).run w.file
      { file := r.1, bufs := fun j => if j = i then r.2.1 else w.bufs j, seen := fun j => if j = i then w.seen i ++ [r.2.2] else w.seen j }

/-- Turns in the order of a schedule. -/
def World.run (bs : Nat → Nat) (clients : Nat → Client) (w : World) (schedule : List Turn) : World := schedule.foldl (World.turn bs clients) w

/-- Two methods running in two threads: at each step of the schedule (`true`: the first one) one call to the file object is made. -/
def threads {α β : Type} : FileObj → Calls α → Calls β → List Bool → FileObj × Calls α × Calls β
  | f, a, b, [] => (f, a, b)
  | f, a, b, true :: s => threads (a.step f).1 (a.step f).2 b s
  | f, a, b, false :: s => threads (b.step f).1 a (b.step f).2 s

end PdfReader
