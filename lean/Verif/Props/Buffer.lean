/-
  C07–C10: the block buffer.
-/
import Verif.Lemmas.Buffer

namespace PdfReader
open Spec

/-- C07. Any client program, run for any number of steps on the buffer opened at any offset with any
block size, and never stepping back before an opening offset, observes exactly the file. -/
theorem C07_buffer_forward (file : Bytes) (bs : Nat) (hbs : 0 < bs) (off : Nat) (client : Client) (n : Nat)
    (hl : Follows file bs (ForwardLegal file bs) client n { cur := Cur.open file bs off } []) :
    runClient (bufStep file bs) client n { buf := Buf.head file bs off } [] =
      runClient (curStep file bs) client n { cur := Cur.open file bs off } [] :=
  run_sim file bs (InvF file bs) _ (fun s t op h hl => step_fwd file bs hbs s t op h hl) client n _ _ _
    ⟨head_fwd file bs off, rfl, by intro i x y h; simp at h⟩ hl

/-- C08. The same for clients which open inside the file (or at its tail) and never move up to the end
of the block loaded then; they may walk back to the very beginning and beyond. -/
theorem C08_buffer_backward (file : Bytes) (bs : Nat) (hbs : 0 < bs) (off : Nat) (hoff : off < file.length)
    (client : Client) (n : Nat)
    (hl : Follows file bs (BackwardLegal file) client n { cur := Cur.open file bs off } []) :
    runClient (bufStep file bs) client n { buf := Buf.head file bs off } [] =
      runClient (curStep file bs) client n { cur := Cur.open file bs off } [] :=
  run_sim file bs (InvB file) _ (fun s t op h hl => step_bwd file bs hbs s t op h hl) client n _ _ _
    ⟨head_bwd file bs off hbs hoff, rfl, by intro i x y h; simp at h⟩ hl

/-- C08 for a buffer opened at the tail (`Buffer(fileobj, -k)`). -/
theorem C08_buffer_tail (file : Bytes) (bs : Nat) (hbs : 0 < bs) (k : Nat) (client : Client) (n : Nat)
    (hl : Follows file bs (BackwardLegal file) client n { cur := Cur.openTail file k } []) :
    runClient (bufStep file bs) client n { buf := Buf.tail file k } [] =
      runClient (curStep file bs) client n { cur := Cur.openTail file k } [] :=
  run_sim file bs (InvB file) _ (fun s t op h hl => step_bwd file bs hbs s t op h hl) client n _ _ _
    ⟨tail_bwd file k, rfl, by intro i x y h; simp at h⟩ hl

/-- C07 corollary: the block size cannot be observed by a client which opens once and only reads
forward or backs up to the opening offset. -/
theorem C07_block_size_irrelevant (file : Bytes) (b₁ b₂ : Nat) (h₁ : 0 < b₁) (h₂ : 0 < b₂) (off : Nat)
    (client : Client) (n : Nat)
    (hl₁ : Follows file b₁ (ForwardLegal file b₁) client n { cur := Cur.open file b₁ off } [])
    (hl₂ : Follows file b₂ (ForwardLegal file b₂) client n { cur := Cur.open file b₂ off } []) :
    runClient (bufStep file b₁) client n { buf := Buf.head file b₁ off } [] =
      runClient (bufStep file b₂) client n { buf := Buf.head file b₂ off } [] := by
  rw [C07_buffer_forward file b₁ h₁ off client n hl₁, C07_buffer_forward file b₂ h₂ off client n hl₂]
  suffices h : ∀ (n : Nat) (s t : CurSt) (hist), s.cur.pos = t.cur.pos → s.saved.map (·.pos) = t.saved.map (·.pos) →
      runClient (curStep file b₁) client n s hist = runClient (curStep file b₂) client n t hist from
    h n _ _ [] rfl rfl
  intro n
  induction n with
  | zero => intros; rfl
  | succ n ih =>
    intro s t hist hp hs
    simp only [runClient]
    cases client hist with
    | none => rfl
    | some op =>
      have hget : ∀ i : Nat, (s.saved[i]?).map (·.pos) = (t.saved[i]?).map (·.pos) := by
        intro i
        have := congrArg (fun l => l[i]?) hs
        simpa using this
      cases op with
      | restore i =>
        simp only [curStep]
        refine ih _ _ _ ?_ hs
        have := hget i
        cases ha : s.saved[i]? <;> cases hb : t.saved[i]? <;> simp_all
      | current => simp only [curStep, hp]; exact ih _ _ _ hp hs
      | next => simp only [curStep, hp]; exact ih _ _ _ (by simp [hp]) hs
      | prev => simp only [curStep, hp]; exact ih _ _ _ (by simp [hp]) hs
      | reset off => simp only [curStep]; exact ih _ _ _ rfl hs
      | resetTail k => simp only [curStep]; exact ih _ _ _ rfl hs
      | save => simp only [curStep]; exact ih _ _ _ hp (by simp [hp, hs])

/-- A client that plays a fixed list of operations. -/
def scripted (ops : List BufOp) : Client := fun h => ops[h.length]?

/-- Premises of C07 are satisfiable by a client crossing block boundaries, backing up, saving and
restoring. -/
example : Follows [1, 2, 3, 4, 5] 2 (ForwardLegal [1, 2, 3, 4, 5] 2)
    (scripted [.next, .next, .save, .next, .next, .next, .next, .prev, .prev, .restore 0, .current, .prev]) 12
    { cur := Cur.open [1, 2, 3, 4, 5] 2 1 } [] := by
  simp [Follows, scripted, ForwardLegal, curStep, Cur.open]

example : runClient (bufStep [1, 2, 3, 4, 5] 2)
    (scripted [.next, .next, .save, .next, .next, .next, .next, .prev, .prev, .restore 0, .current, .prev]) 12
    { buf := Buf.head [1, 2, 3, 4, 5] 2 1 } [] =
    [some (.byte 2), some (.byte 3), none, some (.byte 4), some (.byte 5), some .eof, some .eof, some .eof, some .eof,
     none, some (.byte 4), some (.byte 4)] := by decide +kernel

/-- Premises of C08 are satisfiable by a client walking back over a block boundary and beyond the start. -/
example : Follows [1, 2, 3, 4, 5] 2 (BackwardLegal [1, 2, 3, 4, 5])
    (scripted [.prev, .prev, .prev, .next, .prev, .prev, .prev]) 7
    { cur := Cur.openTail [1, 2, 3, 4, 5] 2 } [] := by
  simp [Follows, scripted, BackwardLegal, curStep, Cur.openTail]

/-- C09 fails (forward over a block boundary, then back before the opening offset): the client reads
byte 3 where the file has byte 1. -/
theorem C09_mixed_use_counterexample :
    let ops := [BufOp.next, .next, .next, .prev, .prev, .prev, .prev, .prev]
    let file : Bytes := [1, 2, 3, 4, 5, 6]
    runClient (bufStep file 2) (scripted ops) 8 { buf := Buf.head file 2 1 } [] ≠
      runClient (curStep file 2) (scripted ops) 8 { cur := Cur.open file 2 1 } [] := by
  decide +kernel

/-- C09 fails (back over a block boundary, then forward to the end): bytes appear after the end of
the file. -/
theorem C09_phantom_bytes_counterexample :
    let ops := [BufOp.prev, .prev, .prev, .next, .next, .next, .next, .current]
    let file : Bytes := [1, 2, 3, 4, 5, 6]
    (runClient (bufStep file 2) (scripted ops) 8 { buf := Buf.tail file 2 } []).getLast? = some (some (.byte 5)) ∧
    (runClient (curStep file 2) (scripted ops) 8 { cur := Cur.openTail file 2 } []).getLast? = some (some .eof) := by
  decide +kernel

/-- C09 fails (opened beyond the end, then back twice): IndexError. -/
theorem C09_index_error_counterexample :
    let ops := [BufOp.prev, .prev, .current]
    runClient (bufStep [1, 2] 4) (scripted ops) 3 { buf := Buf.head [1, 2] 4 8 } [] =
      [some .eof, some .indexError, some (.byte 2)] := by
  decide +kernel

/-- C09 (part): disciplines under which the buffer is transparent; a client may change discipline at
each re-opening. This is the strongest statement with the regimes decided per opening: every history
that is entirely forward-legal or entirely backward-legal. Missing: histories mixing both, false above. -/
theorem C09_transparent_partial (file : Bytes) (bs : Nat) (hbs : 0 < bs) (off : Nat) (client : Client) (n : Nat)
    (hl : Follows file bs (ForwardLegal file bs) client n { cur := Cur.open file bs off } [] ∨
      (off < file.length ∧ Follows file bs (BackwardLegal file) client n { cur := Cur.open file bs off } [])) :
    runClient (bufStep file bs) client n { buf := Buf.head file bs off } [] =
      runClient (curStep file bs) client n { cur := Cur.open file bs off } [] := by
  rcases hl with h | ⟨ho, h⟩
  · exact C07_buffer_forward file bs hbs off client n h
  · exact C08_buffer_backward file bs hbs off ho client n h

/-- Executing a list of operations. -/
def execOps (file : Bytes) (bs : Nat) (s : BufSt) (ops : List BufOp) : BufSt :=
  ops.foldl (fun s op => (bufStep file bs s op).1) s

/-- C10. Save, then do anything at all, then restore: every later observation is what it would have
been right after the save (no discipline required, resets included). -/
theorem C10_save_restore (file : Bytes) (bs : Nat) (s : BufSt) (between : List BufOp) :
    let saved := (bufStep file bs s .save).1
    let back := (bufStep file bs (execOps file bs saved between) (.restore s.saved.length)).1
    back.buf = saved.buf ∧
    ∀ (c : List (Option Got) → Option BufOp) (n : Nat) (h : List (Option Got)),
      (∀ k op, c k = some op → match op with | .restore _ => False | _ => True) →
      runClient (bufStep file bs) c n back h = runClient (bufStep file bs) c n saved h := by
  intro saved back
  have hpre : ∀ (ops : List BufOp) (t : BufSt), (∃ ext, t.saved = saved.saved ++ ext) →
      ∃ ext, (execOps file bs t ops).saved = saved.saved ++ ext := by
    intro ops
    induction ops with
    | nil => intro t h; exact h
    | cons op ops ih =>
      intro t ⟨ext, h⟩
      refine ih _ ?_
      cases op with
      | save => exact ⟨ext ++ [t.buf], by simp [bufStep, h]⟩
      | current => exact ⟨ext, h⟩
      | next => exact ⟨ext, h⟩
      | prev => exact ⟨ext, h⟩
      | reset _ => exact ⟨ext, h⟩
      | resetTail _ => exact ⟨ext, h⟩
      | restore _ => exact ⟨ext, h⟩
  have hbuf : back.buf = saved.buf := by
    obtain ⟨ext, he⟩ := hpre between saved ⟨[], by simp⟩
    have hs : saved.saved = s.saved ++ [s.buf] := rfl
    have hb : saved.buf = s.buf := rfl
    show (((execOps file bs saved between).saved[s.saved.length]?).getD _) = _
    rw [he, hs, hb]
    simp
  refine ⟨hbuf, ?_⟩
  intro c n h hc
  suffices key : ∀ (n : Nat) (s t : BufSt) (h : List (Option Got)), s.buf = t.buf →
      runClient (bufStep file bs) c n s h = runClient (bufStep file bs) c n t h from key n _ _ h hbuf
  intro n
  induction n with
  | zero => intros; rfl
  | succ n ih =>
    intro s t h hst
    simp only [runClient]
    cases hop : c h with
    | none => rfl
    | some op =>
      have := hc h op hop
      cases op with
      | restore i => exact absurd this (by simp)
      | current => simp only [bufStep, hst]; exact ih _ _ _ rfl
      | next => simp only [bufStep, hst]; exact ih _ _ _ rfl
      | prev => simp only [bufStep, hst]; exact ih _ _ _ rfl
      | reset _ => simp only [bufStep]; exact ih _ _ _ rfl
      | resetTail _ => simp only [bufStep]; exact ih _ _ _ rfl
      | save => simp only [bufStep]; exact ih _ _ _ hst

example : (execOps [1, 2, 3] 2 { buf := Buf.head [1, 2, 3] 2 0 } [.next, .next, .next, .prev]).buf.index = 2 := by
  decide +kernel

end PdfReader
