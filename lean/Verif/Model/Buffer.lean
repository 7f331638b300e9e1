/-
  The block buffer: pdfreader/buffer.py.
-/
import Verif.Model.Basic

namespace PdfReader

/-- State of `Buffer` (pdfreader/buffer.py:83-94). `offset`, `last_block_size` and `stack` are
written but never read by the code, and are left out; the file object's own position is set by
`seek` before every read. -/
structure Buf where
  /-- `last_block_offset` -/
  lbo : Nat
  /-- `index` -/
  index : Int
  data : Bytes
  deriving DecidableEq, Repr

/-- `fileobj.seek(off); fileobj.read(n)`. -/
def fileRead (file : Bytes) (off n : Nat) : Bytes := (file.drop off).take n

/-- `self.data[self.index]` with Python's negative indices; `none` = IndexError. -/
def pyIndex (data : Bytes) (i : Int) : Option Byte :=
  if 0 ≤ i then data[i.toNat]?
  else if 0 ≤ i + data.length then data[(i + data.length).toNat]?
  else none

/-- `_read_forward`, buffer.py:96-104. `none` = EOFException. -/
def Buf.readForward (file : Bytes) (bs : Nat) (b : Buf) : Option Buf :=
  let d := fileRead file (b.lbo + bs) bs
  if d = [] then none
  else some { b with lbo := b.lbo + d.length, data := b.data ++ d }

/-- `_read_backward`, buffer.py:106-117. `none` = EOFException. -/
def Buf.readBackward (file : Bytes) (bs : Nat) (b : Buf) : Option Buf :=
  if b.lbo = 0 then none
  else
    let size := min b.lbo bs
    let off := b.lbo - size
    let d := fileRead file off size
    some { lbo := off, index := d.length + b.index, data := d ++ b.data }

/-- Result of reading one byte: a byte, `None` (end of file), or an IndexError. -/
inductive Got where
  | byte (c : Byte) | eof | indexError
  deriving DecidableEq, Repr

/-- `bytes([self.data[self.index]])`. -/
def Buf.fetch (b : Buf) : Got :=
  match pyIndex b.data b.index with
  | some c => .byte c
  | none => .indexError

/-- `current`, buffer.py:147-157. -/
def Buf.current (file : Bytes) (bs : Nat) (b : Buf) : Buf × Got :=
  if (b.data.length : Int) ≤ b.index then
    match b.readForward file bs with
    | some b' => (b', b'.fetch)
    | none => (b, .eof)
  else if b.index < 0 then
    match b.readBackward file bs with
    | some b' => (b', b'.fetch)
    | none => (b, .eof)
  else (b, b.fetch)

/-- `res = self.current; self.index += d; return res`: an IndexError raised by `current` skips the
move. -/
def Buf.move (d : Int) (r : Buf × Got) : Buf × Got :=
  match r.2 with
  | .indexError => r
  | g => ({ r.1 with index := r.1.index + d }, g)

/-- `next`, buffer.py:135-139. -/
def Buf.next (file : Bytes) (bs : Nat) (b : Buf) : Buf × Got := Buf.move 1 (b.current file bs)

/-- `prev`, buffer.py:141-145. -/
def Buf.prev (file : Bytes) (bs : Nat) (b : Buf) : Buf × Got := Buf.move (-1) (b.current file bs)

/-- `reset(offset)` with `offset >= 0`: `_read_head`, buffer.py:119-125. -/
def Buf.head (file : Bytes) (bs : Nat) (off : Nat) : Buf :=
  { lbo := off, index := 0, data := fileRead file off bs }

/-- `reset(-k)`: `_read_tail`, buffer.py:127-133, for a file-like object whose `seek(-k, SEEK_END)`
clamps at the start (BytesIO; a real file raises OSError if `k` exceeds the file size). -/
def Buf.tail (file : Bytes) (k : Nat) : Buf :=
  { lbo := file.length - k, index := ((file.drop (file.length - k)).length : Int) - 1,
    data := file.drop (file.length - k) }

/-- Operations of a buffer client. `save` is `get_state` and appends to a list of saved states;
`restore i` is `set_state` of the `i`-th saved state (buffer.py:177-183). -/
inductive BufOp where
  | current | next | prev
  | reset (off : Nat)
  | resetTail (k : Nat)
  | save
  | restore (i : Nat)

/-- Buffer together with the states saved so far. -/
structure BufSt where
  buf : Buf
  saved : List Buf := []

/-- One operation; `none` = an operation without result. -/
def bufStep (file : Bytes) (bs : Nat) (s : BufSt) : BufOp → BufSt × Option Got
  | .current => let r := s.buf.current file bs; ({ s with buf := r.1 }, some r.2)
  | .next => let r := s.buf.next file bs; ({ s with buf := r.1 }, some r.2)
  | .prev => let r := s.buf.prev file bs; ({ s with buf := r.1 }, some r.2)
  | .reset off => ({ s with buf := Buf.head file bs off }, none)
  | .resetTail k => ({ s with buf := Buf.tail file k }, none)
  | .save => ({ s with saved := s.saved ++ [s.buf] }, none)
  | .restore i => ({ s with buf := (s.saved[i]?).getD s.buf }, none)

/-- A client chooses its next operation from everything observed so far; `none` = it stops. -/
abbrev Client := List (Option Got) → Option BufOp

/-- Run a client for at most `n` operations on a machine; the result is the history of answers. -/
def runClient {σ : Type} (step : σ → BufOp → σ × Option Got) (client : Client) :
    Nat → σ → List (Option Got) → List (Option Got)
  | 0, _, h => h
  | n + 1, s, h =>
    match client h with
    | none => h
    | some op => runClient step client n (step s op).1 (h ++ [(step s op).2])

end PdfReader
