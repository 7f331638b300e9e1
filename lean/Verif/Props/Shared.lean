/-
  C114: documents on the same file object.
-/
import Verif.Model.Shared
import Verif.Props.Buffer

namespace PdfReader
open Spec

theorem forward_run {α : Type} (bs : Nat) (b : Buf) (k : Option Buf → α) (f : FileObj) :
    ∃ p, (forwardCalls bs b k).run f = ({ f with pos := p }, k (b.readForward f.bytes bs)) := ⟨_, rfl⟩

theorem backward_run {α : Type} (bs : Nat) (b : Buf) (k : Option Buf → α) (f : FileObj) :
    ∃ p, (backwardCalls bs b k).run f = ({ f with pos := p }, k (b.readBackward f.bytes bs)) := by
  unfold backwardCalls Buf.readBackward
  by_cases h : b.lbo = 0
  · rw [if_pos h, if_pos h]; exact ⟨f.pos, rfl⟩
  · rw [if_neg h, if_neg h]; exact ⟨_, rfl⟩

theorem current_run {α : Type} (bs : Nat) (b : Buf) (k : Buf × Got → α) (f : FileObj) :
    ∃ p, (currentCalls bs b k).run f = ({ f with pos := p }, k (b.current f.bytes bs)) := by
  have e : b.current f.bytes bs = if (b.data.length : Int) ≤ b.index then gotBlock b (b.readForward f.bytes bs)
      else if b.index < 0 then gotBlock b (b.readBackward f.bytes bs) else (b, b.fetch) := by
    unfold Buf.current
    cases b.readForward f.bytes bs <;> cases b.readBackward f.bytes bs <;> rfl
  rw [e]
  unfold currentCalls
  split
  · exact forward_run bs b _ f
  · split
    · exact backward_run bs b _ f
    · exact ⟨f.pos, rfl⟩

/-- A method gives what it gives on the bytes of the file, wherever the position of the file object was before, and does not change the bytes. -/
theorem op_run (bs : Nat) (s : BufSt) (op : BufOp) (f : FileObj) :
    ∃ p, (opCalls bs s op).run f = ({ f with pos := p }, bufStep f.bytes bs s op) := by
  cases op with
  | current => exact current_run bs s.buf (fun r => ({ s with buf := r.1 }, some r.2)) f
  | next => exact current_run bs s.buf (fun r => ({ s with buf := (Buf.move 1 r).1 }, some (Buf.move 1 r).2)) f
  | prev => exact current_run bs s.buf (fun r => ({ s with buf := (Buf.move (-1) r).1 }, some (Buf.move (-1) r).2)) f
  | reset off => exact ⟨_, rfl⟩
  | resetTail k => exact ⟨_, rfl⟩
  | save => exact ⟨f.pos, rfl⟩
  | restore i => exact ⟨_, rfl⟩

theorem turn_bytes (bs : Nat → Nat) (clients : Nat → Client) (w : World) (t : Turn) : (w.turn bs clients t).file.bytes = w.file.bytes := by
  cases t with
  | move p => rfl
  | use i =>
    unfold World.turn
    dsimp only
    cases clients i (w.seen i) with
    | none => rfl
    | some op =>
      obtain ⟨p, e⟩ := op_run (bs i) (w.bufs i) op w.file
      dsimp only
      rw [e]

/-- C114: whatever the schedule is (any number of documents on one file object, their calls interleaved in any order with each other and with the
application moving the position of the file object), each client sees what it would see if it had the file object for itself. -/
theorem C114_alone (bs : Nat → Nat) (clients : Nat → Client) (schedule : List Turn) (w : World) (i : Nat) :
    (w.run bs clients schedule).seen i =
      runClient (bufStep w.file.bytes (bs i)) (clients i) (schedule.count (.use i)) (w.bufs i) (w.seen i) := by
  induction schedule generalizing w with
  | nil => rfl
  | cons t schedule ih =>
    show ((w.turn bs clients t).run bs clients schedule).seen i = _
    rw [ih, turn_bytes]
    cases t with
    | move p => rw [List.count_cons_of_ne (by simp)]; rfl
    | use j =>
      by_cases hj : j = i
      · subst hj
        rw [List.count_cons_self, runClient]
        unfold World.turn
        dsimp only
        cases hc : clients j (w.seen j) with
        | none =>
          dsimp only
          generalize schedule.count (.use j) = n
          cases n with
          | zero => rfl
          | succ n => rw [runClient, hc]
        | some op =>
          obtain ⟨p, e⟩ := op_run (bs j) (w.bufs j) op w.file
          dsimp only
          rw [e]
          simp only [if_true]
      · rw [List.count_cons_of_ne (by simp; exact hj)]
        unfold World.turn
        dsimp only
        cases clients j (w.seen j) with
        | none => rfl
        | some op =>
          dsimp only
          rw [if_neg (fun h => hj h.symm), if_neg (fun h => hj h.symm)]

/-- C114 with C07: a client which reads forward from an offset of its own sees the file, whatever the others do. -/
theorem C114_reads (bs : Nat → Nat) (clients : Nat → Client) (schedule : List Turn) (w : World) (i off : Nat) (hbs : 0 < bs i)
    (hstart : w.bufs i = { buf := Buf.head w.file.bytes (bs i) off }) (hseen : w.seen i = [])
    (hl : Follows w.file.bytes (bs i) (ForwardLegal w.file.bytes (bs i)) (clients i) (schedule.count (.use i)) { cur := Cur.open w.file.bytes (bs i) off } []) :
    (w.run bs clients schedule).seen i =
      runClient (curStep w.file.bytes (bs i)) (clients i) (schedule.count (.use i)) { cur := Cur.open w.file.bytes (bs i) off } [] := by
  rw [C114_alone, hstart, hseen, C07_buffer_forward w.file.bytes (bs i) hbs off (clients i) _ hl]

/-- Two clients: one opens at 0 and reads three bytes, the other opens at the last block; in between the application moves the position. -/
def sharedWorld : World := { file := ⟨b!"abcdef", 0⟩, bufs := fun _ => { buf := ⟨0, 0, []⟩ }, seen := fun _ => [] }

def sharedClients : Nat → Client
  | 0 => scripted [.reset 0, .next, .next, .next]
  | _ => scripted [.resetTail 2, .prev, .prev, .prev]

example : (sharedWorld.run (fun _ => 2) sharedClients [.use 0, .use 1, .move 5, .use 0, .use 1, .use 0, .move 0, .use 1, .use 0, .use 1]).seen 0 =
    [none, some (.byte 97), some (.byte 98), some (.byte 99)] := by
  rw [C114_alone]; decide +kernel

example : (sharedWorld.run (fun _ => 2) sharedClients [.use 0, .use 1, .move 5, .use 0, .use 1, .use 0, .move 0, .use 1, .use 0, .use 1]).seen 1 =
    [none, some (.byte 102), some (.byte 101), some (.byte 100)] := by
  rw [C114_alone]; decide +kernel

/-- C115 is false: if two threads open documents on the same file object, one of them can get the bytes of the other: the position is set by one call
and the bytes are read by the next. -/
theorem C115_threads_counterexample :
    let f : FileObj := ⟨b!"abcdef", 0⟩
    let s : BufSt := { buf := ⟨0, 0, []⟩ }
    (match (threads f (opCalls 2 s (.reset 0)) (opCalls 2 s (.reset 3)) [true, false, true, false]).2.1 with | .done r => some r.1.buf.data | _ => none) = some b!"de" ∧
    ((opCalls 2 s (.reset 0)).run f).2.1.buf.data = b!"ab" := by decide +kernel

/-- The calls of a method, one after the other: after enough steps it has the result of running it at once. -/
theorem threads_first {α β : Type} : ∀ (a : Calls α) (f : FileObj) (b : Calls β), ∃ n, ∀ m, n ≤ m →
    ∀ s, threads f a b (List.replicate m true ++ s) = threads (a.run f).1 (.done (a.run f).2) b s
  | .done a, f, b => ⟨0, fun m _ s => by
      induction m with
      | zero => rfl
      | succ m ih => rw [List.replicate_succ, List.cons_append, threads]; exact ih (Nat.zero_le _)⟩
  | .seek off k, f, b => by
      obtain ⟨n, h⟩ := threads_first k { f with pos := off } b
      refine ⟨n + 1, fun m hm s => ?_⟩
      obtain ⟨m, rfl⟩ : ∃ m', m = m' + 1 := ⟨m - 1, by omega⟩
      rw [List.replicate_succ, List.cons_append, threads]
      exact h m (by omega) s
  | .seekEnd back k, f, b => by
      obtain ⟨n, h⟩ := threads_first (k (f.bytes.length - back)) { f with pos := f.bytes.length - back } b
      refine ⟨n + 1, fun m hm s => ?_⟩
      obtain ⟨m, rfl⟩ : ∃ m', m = m' + 1 := ⟨m - 1, by omega⟩
      rw [List.replicate_succ, List.cons_append, threads]
      exact h m (by omega) s
  | .read k c, f, b => by
      obtain ⟨n, h⟩ := threads_first (c ((f.bytes.drop f.pos).take k)) { f with pos := f.pos + ((f.bytes.drop f.pos).take k).length } b
      refine ⟨n + 1, fun m hm s => ?_⟩
      obtain ⟨m, rfl⟩ : ∃ m', m = m' + 1 := ⟨m - 1, by omega⟩
      rw [List.replicate_succ, List.cons_append, threads]
      exact h m (by omega) s
  | .readAll c, f, b => by
      obtain ⟨n, h⟩ := threads_first (c (f.bytes.drop f.pos)) { f with pos := f.pos + (f.bytes.drop f.pos).length } b
      refine ⟨n + 1, fun m hm s => ?_⟩
      obtain ⟨m, rfl⟩ : ∃ m', m = m' + 1 := ⟨m - 1, by omega⟩
      rw [List.replicate_succ, List.cons_append, threads]
      exact h m (by omega) s

theorem threads_swap {α β : Type} : ∀ (s : List Bool) (f : FileObj) (a : Calls α) (b : Calls β),
    threads f b a (s.map (!·)) = ((threads f a b s).1, (threads f a b s).2.2, (threads f a b s).2.1)
  | [], _, _, _ => rfl
  | true :: s, f, a, b => threads_swap s _ _ _
  | false :: s, f, a, b => threads_swap s _ _ _

/-- C115, partial: if the calls of a method are not interrupted (a lock around each use of the library, say), then each thread gets what it would get
alone, and the methods may come in either order. Missing: threads without a lock (counterexample). -/
theorem C115_locked_partial (bs bs' : Nat) (s s' : BufSt) (op op' : BufOp) (f : FileObj) : ∃ n, ∀ m, n ≤ m →
    ∃ p, threads f (opCalls bs s op) (opCalls bs' s' op') (List.replicate m true ++ List.replicate m false) =
      ({ f with pos := p }, .done (bufStep f.bytes bs s op), .done (bufStep f.bytes bs' s' op')) := by
  obtain ⟨p, e⟩ := op_run bs s op f
  obtain ⟨p', e'⟩ := op_run bs' s' op' { f with pos := p }
  obtain ⟨n, h⟩ := threads_first (opCalls bs s op) f (opCalls bs' s' op')
  obtain ⟨n', h'⟩ := threads_first (opCalls bs' s' op') { f with pos := p } (Calls.done (bufStep f.bytes bs s op))
  refine ⟨max n n', fun m hm => ⟨p', ?_⟩⟩
  rw [h m (by omega), e]
  have hs := threads_swap (List.replicate m true) { f with pos := p } (opCalls bs' s' op') (Calls.done (bufStep f.bytes bs s op))
  rw [List.map_replicate] at hs
  have := h' m (by omega) []
  rw [List.append_nil] at this
  simp only [Bool.not_true] at hs
  rw [hs, this, threads, e']

example : ∃ n, ∀ m, n ≤ m → ∃ p, threads ⟨b!"abcdef", 0⟩ (opCalls 2 { buf := ⟨0, 0, []⟩ } (.reset 0)) (opCalls 2 { buf := ⟨0, 0, []⟩ } (.reset 3))
    (List.replicate m true ++ List.replicate m false) =
    (⟨b!"abcdef", p⟩, .done ({ buf := ⟨0, 0, b!"ab"⟩ }, none), .done ({ buf := ⟨3, 0, b!"de"⟩ }, none)) := C115_locked_partial 2 2 _ _ _ _ _

end PdfReader
