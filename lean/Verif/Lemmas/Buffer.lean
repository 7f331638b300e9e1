import Verif.Spec.Buffer
import Verif.Lemmas.Basic

namespace PdfReader
open Spec

theorem fileRead_length (file : Bytes) (off n : Nat) :
    (fileRead file off n).length = min n (file.length - off) := by
  simp [fileRead]

theorem fileRead_append (file : Bytes) (off m n : Nat) (h : (fileRead file off m).length = m) :
    fileRead file off m ++ fileRead file (off + m) n = fileRead file off (m + n) := by
  unfold fileRead
  rw [List.take_add]
  congr 1
  rw [List.drop_drop]

theorem fileRead_get (file : Bytes) (off n i : Nat) (hi : i < (fileRead file off n).length) :
    (fileRead file off n)[i]? = file[off + i]? := by
  rw [fileRead_length] at hi
  unfold fileRead
  rw [List.getElem?_take_of_lt (by omega), List.getElem?_drop]

theorem fetch_in (file : Bytes) (b : Buf) (base : Nat) (hd : b.data = fileRead file base b.data.length)
    (h0 : 0 ≤ b.index) (h1 : b.index < b.data.length) :
    b.fetch = byteAt file (base + b.index) := by
  have hlt : b.index.toNat < (fileRead file base b.data.length).length := by rw [← hd]; omega
  have hg : b.data[b.index.toNat]? = file[base + b.index.toNat]? := by
    rw [hd]; exact fileRead_get file base _ _ hlt
  have hflt : base + b.index.toNat < file.length := by
    rw [fileRead_length] at hlt; omega
  simp only [Buf.fetch, pyIndex, if_pos h0, hg, byteAt]
  rw [if_neg (by omega), show ((base : Int) + b.index).toNat = base + b.index.toNat by omega]
  rw [List.getElem?_eq_getElem hflt]

/-- Forward invariant: the data loaded is the file from `base` on. -/
structure InvF (file : Bytes) (bs : Nat) (b : Buf) (c : Cur) : Prop where
  data : b.data = fileRead file c.base b.data.length
  pos : c.pos = c.base + b.index
  nonneg : 0 ≤ b.index
  fwd : b.lbo + bs = c.base + b.data.length ∨
    (file.length ≤ c.base + b.data.length ∧ file.length ≤ b.lbo + bs)
  idx : b.index ≤ b.data.length ∨ file.length ≤ c.base + b.data.length

theorem byteAt_eof (file : Bytes) (p : Int) (h : (file.length : Int) ≤ p) : byteAt file p = .eof := by
  unfold byteAt
  rw [if_neg (by omega), List.getElem?_eq_none (by omega)]

theorem byteAt_ne (file : Bytes) (p : Int) : byteAt file p ≠ .indexError := by
  unfold byteAt
  split
  · simp
  · split <;> simp

theorem move_eq (d : Int) (r : Buf × Got) (file : Bytes) (p : Int) (h : r.2 = byteAt file p) :
    Buf.move d r = ({ r.1 with index := r.1.index + d }, byteAt file p) := by
  unfold Buf.move
  rw [h]
  have := byteAt_ne file p
  cases hb : byteAt file p <;> simp_all

theorem current_fwd (file : Bytes) (bs : Nat) (hbs : 0 < bs) (b : Buf) (c : Cur) (h : InvF file bs b c) :
    (b.current file bs).2 = byteAt file c.pos ∧ InvF file bs (b.current file bs).1 c := by
  unfold Buf.current
  by_cases hi : (b.data.length : Int) ≤ b.index
  · rw [if_pos hi]
    unfold Buf.readForward
    by_cases hd : fileRead file (b.lbo + bs) bs = []
    · simp only [hd, if_true]
      refine ⟨?_, h⟩
      have hl := congrArg List.length hd
      rw [fileRead_length] at hl
      simp only [List.length_nil] at hl
      have hle : file.length ≤ b.lbo + bs := by omega
      rw [byteAt_eof]
      rw [h.pos]
      rcases h.fwd with hf | hf <;> omega
    · simp only [if_neg hd]
      have hne : 0 < (fileRead file (b.lbo + bs) bs).length := by
        cases hq : fileRead file (b.lbo + bs) bs with
        | nil => exact absurd hq hd
        | cons _ _ => simp
      have hlen := fileRead_length file (b.lbo + bs) bs
      have hin : b.lbo + bs < file.length := by omega
      have hf : b.lbo + bs = c.base + b.data.length := by
        rcases h.fwd with hf | hf
        · exact hf
        · omega
      have hdl := congrArg List.length h.data
      rw [fileRead_length] at hdl
      have hidx : b.index = b.data.length := by
        rcases h.idx with hx | hx <;> omega
      have hdata : b.data ++ fileRead file (b.lbo + bs) bs =
          fileRead file c.base (b.data.length + (fileRead file (b.lbo + bs) bs).length) := by
        have e : fileRead file (b.lbo + bs) bs = fileRead file (c.base + b.data.length) (fileRead file (b.lbo + bs) bs).length := by
          rw [hf]; unfold fileRead; rw [List.take_eq_take_iff]; simp
        conv => lhs; rw [e]
        conv => lhs; lhs; rw [h.data]
        exact fileRead_append file c.base b.data.length _ (by rw [← h.data])
      have hinv : InvF file bs { b with lbo := b.lbo + (fileRead file (b.lbo + bs) bs).length, data := b.data ++ fileRead file (b.lbo + bs) bs } c := by
        refine ⟨?_, h.pos, h.nonneg, ?_, ?_⟩
        · simp only [List.length_append]; exact hdata
        · left; simp only [List.length_append]; omega
        · left; simp only [List.length_append]; omega
      refine ⟨?_, hinv⟩
      rw [fetch_in file _ c.base hinv.data hinv.nonneg (by simp only [List.length_append]; omega)]
      rw [h.pos]
  · rw [if_neg hi, if_neg (by have := h.nonneg; omega)]
    refine ⟨?_, h⟩
    rw [fetch_in file b c.base h.data h.nonneg (by omega), h.pos]

theorem next_fwd (file : Bytes) (bs : Nat) (hbs : 0 < bs) (b : Buf) (c : Cur) (h : InvF file bs b c) :
    (b.next file bs).2 = byteAt file c.pos ∧ InvF file bs (b.next file bs).1 { c with pos := c.pos + 1 } := by
  obtain ⟨h1, h2⟩ := current_fwd file bs hbs b c h
  unfold Buf.next
  rw [move_eq _ _ file c.pos h1]
  refine ⟨rfl, h2.data, ?_, ?_, h2.fwd, ?_⟩
  · have := h2.pos; simp only; omega
  · have := h2.nonneg; simp only; omega
  · simp only
    -- if the old position was readable, index < length afterwards
    by_cases he : file.length ≤ c.base + (b.current file bs).1.data.length
    · right; exact he
    · left
      have hle : (b.current file bs).1.index ≤ (b.current file bs).1.data.length := by
        rcases h2.idx with hx | hx
        · exact hx
        · exact absurd hx he
      -- equality would mean that data was not extended although it could be
      have hlt : (b.current file bs).1.index < (b.current file bs).1.data.length := by
        refine Classical.byContradiction fun hcon => ?_
        have heq : (b.current file bs).1.index = (b.current file bs).1.data.length := by omega
        have hpos := h2.pos
        unfold Buf.current at heq he
        by_cases hi : (b.data.length : Int) ≤ b.index
        · rw [if_pos hi] at heq he
          unfold Buf.readForward at heq he
          by_cases hd : fileRead file (b.lbo + bs) bs = []
          · simp only [hd, if_true] at heq he
            have hl := congrArg List.length hd
            rw [fileRead_length] at hl
            simp only [List.length_nil] at hl
            rcases h.fwd with hf | hf <;> omega
          · simp only [if_neg hd] at heq he
            have hne : 0 < (fileRead file (b.lbo + bs) bs).length := by
              cases hq : fileRead file (b.lbo + bs) bs with
              | nil => exact absurd hq hd
              | cons _ _ => simp
            simp only [List.length_append] at heq he
            rcases h.idx with hx | hx <;> omega
        · rw [if_neg hi, if_neg (by have := h.nonneg; omega)] at heq
          simp only at heq
          omega
      omega

theorem prev_fwd (file : Bytes) (bs : Nat) (hbs : 0 < bs) (b : Buf) (c : Cur) (h : InvF file bs b c)
    (hp : (c.base : Int) < c.pos) :
    (b.prev file bs).2 = byteAt file c.pos ∧ InvF file bs (b.prev file bs).1 { c with pos := c.pos - 1 } := by
  obtain ⟨h1, h2⟩ := current_fwd file bs hbs b c h
  unfold Buf.prev
  rw [move_eq _ _ file c.pos h1]
  refine ⟨rfl, h2.data, ?_, ?_, h2.fwd, ?_⟩
  · have := h2.pos; simp only; omega
  · have := h2.pos; simp only; omega
  · simp only
    rcases h2.idx with hx | hx
    · left; omega
    · right; exact hx

theorem head_fwd (file : Bytes) (bs off : Nat) : InvF file bs (Buf.head file bs off) (Cur.open file bs off) := by
  have hl := fileRead_length file off bs
  refine ⟨?_, ?_, ?_, ?_, ?_⟩
  · simp only [Buf.head, Cur.open]
    rw [hl]; unfold fileRead; rw [List.take_eq_take_iff]; simp
  · simp [Buf.head, Cur.open]
  · simp [Buf.head]
  · simp only [Buf.head, Cur.open, hl]; omega
  · left; simp [Buf.head]

theorem tail_fwd (file : Bytes) (bs k : Nat) (hk : 1 ≤ k) (hkb : k ≤ bs) (hne : file ≠ []) :
    InvF file bs (Buf.tail file k) (Cur.openTail file k) := by
  have hpos : 0 < file.length := List.length_pos_iff.mpr hne
  refine ⟨?_, ?_, ?_, ?_, ?_⟩
  · simp only [Buf.tail, Cur.openTail, fileRead]
    rw [List.take_of_length_le (Nat.le_refl _)]
  · simp only [Buf.tail, Cur.openTail, List.length_drop]; omega
  · simp only [Buf.tail, List.length_drop]; omega
  · right; simp only [Buf.tail, Cur.openTail, List.length_drop]; omega
  · right; simp only [Buf.tail, Cur.openTail, List.length_drop]; omega

/-- Backward invariant: the data loaded is the file up to `top`. -/
structure InvB (file : Bytes) (b : Buf) (c : Cur) : Prop where
  data : b.data = fileRead file b.lbo b.data.length
  top : b.lbo + b.data.length = c.top
  pos : c.pos = b.lbo + b.index
  below : c.pos < c.top
  inside : c.top ≤ file.length
  idx : -1 ≤ b.index ∨ b.lbo = 0

theorem current_bwd (file : Bytes) (bs : Nat) (hbs : 0 < bs) (b : Buf) (c : Cur) (h : InvB file b c) :
    (b.current file bs).2 = byteAt file c.pos ∧ InvB file (b.current file bs).1 c ∧
      (0 ≤ (b.current file bs).1.index ∨ (b.current file bs).1.lbo = 0) := by
  unfold Buf.current
  have htop := h.top; have hpos := h.pos; have hbel := h.below
  rw [if_neg (by omega)]
  by_cases hi : b.index < 0
  · rw [if_pos hi]
    unfold Buf.readBackward
    by_cases hz : b.lbo = 0
    · simp only [if_pos hz]
      refine ⟨?_, h, Or.inr hz⟩
      unfold byteAt
      rw [if_pos (by omega)]
    · simp only [if_neg hz]
      have hix : b.index = -1 := by rcases h.idx with hx | hx <;> omega
      have hdl := congrArg List.length h.data
      rw [fileRead_length] at hdl
      have hlbo : b.lbo < file.length ∨ b.data.length = 0 := by omega
      have hbelow' : c.pos = (b.lbo : Int) - 1 := by omega
      by_cases hlt : b.lbo ≤ file.length
      · have hsz : (fileRead file (b.lbo - min b.lbo bs) (min b.lbo bs)).length = min b.lbo bs := by
          rw [fileRead_length]; omega
        have hdata : fileRead file (b.lbo - min b.lbo bs) (min b.lbo bs) ++ b.data =
            fileRead file (b.lbo - min b.lbo bs) (min b.lbo bs + b.data.length) := by
          have := fileRead_append file (b.lbo - min b.lbo bs) (min b.lbo bs) b.data.length hsz
          rw [← this]
          congr 1
          rw [show b.lbo - min b.lbo bs + min b.lbo bs = b.lbo by omega]
          exact h.data
        have hinv : InvB file { lbo := b.lbo - min b.lbo bs, index := (fileRead file (b.lbo - min b.lbo bs) (min b.lbo bs)).length + b.index, data := fileRead file (b.lbo - min b.lbo bs) (min b.lbo bs) ++ b.data } c := by
          refine ⟨?_, ?_, ?_, hbel, h.inside, ?_⟩
          · simp only [List.length_append]
            conv => rhs; rw [hsz]
            exact hdata
          · simp only [List.length_append, hsz]; omega
          · simp only [hsz]; omega
          · left; simp only [hsz]; omega
        refine ⟨?_, hinv, ?_⟩
        · rw [fetch_in file _ (b.lbo - min b.lbo bs) hinv.data (by simp only [hsz]; omega)
            (by simp only [List.length_append, hsz]; omega)]
          simp only [hsz]
          congr 1
          omega
        · left; simp only [hsz]; omega
      · exact absurd h.inside (by omega)
  · rw [if_neg hi]
    refine ⟨?_, h, Or.inl (by simp only; omega)⟩
    rw [fetch_in file b b.lbo h.data (by omega) (by omega), h.pos]

theorem move_bwd (file : Bytes) (b : Buf) (c : Cur) (h : InvB file b c) (hx : 0 ≤ b.index ∨ b.lbo = 0) (p : Int)
    (hp : p = c.pos + 1 ∧ p < c.top ∨ p = c.pos - 1) :
    InvB file { b with index := b.index + (p - c.pos) } { c with pos := p } := by
  have hb := h.below
  refine ⟨h.data, h.top, ?_, ?_, h.inside, ?_⟩
  · have := h.pos; simp only; omega
  · simp only; omega
  · simp only; omega

theorem next_bwd (file : Bytes) (bs : Nat) (hbs : 0 < bs) (b : Buf) (c : Cur) (h : InvB file b c)
    (hp : c.pos + 1 < c.top) :
    (b.next file bs).2 = byteAt file c.pos ∧ InvB file (b.next file bs).1 { c with pos := c.pos + 1 } := by
  obtain ⟨h1, h2, h3⟩ := current_bwd file bs hbs b c h
  have := move_bwd file _ c h2 h3 (c.pos + 1) (Or.inl ⟨rfl, hp⟩)
  rw [show c.pos + 1 - c.pos = 1 by omega] at this
  unfold Buf.next
  rw [move_eq _ _ file c.pos h1]
  exact ⟨rfl, this⟩

theorem prev_bwd (file : Bytes) (bs : Nat) (hbs : 0 < bs) (b : Buf) (c : Cur) (h : InvB file b c) :
    (b.prev file bs).2 = byteAt file c.pos ∧ InvB file (b.prev file bs).1 { c with pos := c.pos - 1 } := by
  obtain ⟨h1, h2, h3⟩ := current_bwd file bs hbs b c h
  have := move_bwd file _ c h2 h3 (c.pos - 1) (Or.inr rfl)
  rw [show c.pos - 1 - c.pos = -1 by omega] at this
  unfold Buf.prev
  rw [move_eq _ _ file c.pos h1]
  exact ⟨rfl, this⟩

theorem head_bwd (file : Bytes) (bs off : Nat) (hbs : 0 < bs) (ho : off < file.length) :
    InvB file (Buf.head file bs off) (Cur.open file bs off) := by
  have hl := fileRead_length file off bs
  refine ⟨?_, ?_, ?_, ?_, ?_, ?_⟩
  · simp only [Buf.head]
    rw [hl]; unfold fileRead; rw [List.take_eq_take_iff]; simp
  · simp only [Buf.head, Cur.open, hl]; omega
  · simp [Buf.head, Cur.open]
  · simp only [Cur.open]; omega
  · simp only [Cur.open]; omega
  · left; simp [Buf.head]

theorem tail_bwd (file : Bytes) (k : Nat) :
    InvB file (Buf.tail file k) (Cur.openTail file k) := by
  refine ⟨?_, ?_, ?_, ?_, ?_, ?_⟩
  · simp only [Buf.tail, fileRead]
    rw [List.take_of_length_le (Nat.le_refl _)]
  · simp only [Buf.tail, Cur.openTail, List.length_drop]; omega
  · simp only [Buf.tail, Cur.openTail, List.length_drop]; omega
  · simp only [Cur.openTail]; omega
  · simp [Cur.openTail]
  · simp only [Buf.tail, List.length_drop]; omega

/-! ### lifting a step simulation to client runs -/

/-- Saved states correspond pairwise. -/
def SavedRel (R : Buf → Cur → Prop) (xs : List Buf) (ys : List Cur) : Prop :=
  xs.length = ys.length ∧ ∀ (i : Nat) x y, xs[i]? = some x → ys[i]? = some y → R x y

structure StRel (R : Buf → Cur → Prop) (s : BufSt) (t : CurSt) : Prop where
  cur : R s.buf t.cur
  saved : SavedRel R s.saved t.saved

theorem SavedRel.snoc {R : Buf → Cur → Prop} {xs ys x y} (h : SavedRel R xs ys) (hxy : R x y) :
    SavedRel R (xs ++ [x]) (ys ++ [y]) := by
  obtain ⟨hl, hr⟩ := h
  refine ⟨by simp [hl], ?_⟩
  intro i a b ha hb
  rw [List.getElem?_append] at ha hb
  by_cases hi : i < xs.length
  · rw [if_pos hi] at ha; rw [if_pos (by omega)] at hb; exact hr i a b ha hb
  · rw [if_neg hi] at ha; rw [if_neg (by omega)] at hb
    rw [← hl] at hb
    cases hk : i - xs.length with
    | zero => rw [hk] at ha hb; simp at ha hb; subst ha; subst hb; exact hxy
    | succ k => rw [hk] at ha; simp at ha

theorem SavedRel.get {R : Buf → Cur → Prop} {xs ys} (h : SavedRel R xs ys) {i : Nat} (hi : i < ys.length) {x0 y0} :
    R ((xs[i]?).getD x0) ((ys[i]?).getD y0) := by
  obtain ⟨hl, hr⟩ := h
  have h1 : i < xs.length := by omega
  rw [List.getElem?_eq_getElem h1, List.getElem?_eq_getElem hi]
  exact hr i _ _ (List.getElem?_eq_getElem h1) (List.getElem?_eq_getElem hi)

theorem run_sim (file : Bytes) (bs : Nat) (R : Buf → Cur → Prop) (legal : CurSt → BufOp → Prop)
    (hstep : ∀ s t op, StRel R s t → legal t op →
      (bufStep file bs s op).2 = (curStep file bs t op).2 ∧ StRel R (bufStep file bs s op).1 (curStep file bs t op).1)
    (client : Client) (n : Nat) : ∀ s t h, StRel R s t → Follows file bs legal client n t h →
      runClient (bufStep file bs) client n s h = runClient (curStep file bs) client n t h := by
  induction n with
  | zero => intros; rfl
  | succ n ih =>
    intro s t h hst hf
    simp only [runClient, Follows] at *
    cases hc : client h with
    | none => rfl
    | some op =>
      rw [hc] at hf
      obtain ⟨he, hr⟩ := hstep s t op hst hf.1
      simp only [he]
      exact ih _ _ _ hr hf.2

theorem step_fwd (file : Bytes) (bs : Nat) (hbs : 0 < bs) (s : BufSt) (t : CurSt) (op : BufOp)
    (h : StRel (InvF file bs) s t) (hl : ForwardLegal file bs t op) :
    (bufStep file bs s op).2 = (curStep file bs t op).2 ∧
      StRel (InvF file bs) (bufStep file bs s op).1 (curStep file bs t op).1 := by
  cases op with
  | current =>
    obtain ⟨h1, h2⟩ := current_fwd file bs hbs _ _ h.cur
    exact ⟨congrArg some h1, h2, h.saved⟩
  | next =>
    obtain ⟨h1, h2⟩ := next_fwd file bs hbs _ _ h.cur
    exact ⟨congrArg some h1, h2, h.saved⟩
  | prev =>
    obtain ⟨h1, h2⟩ := prev_fwd file bs hbs _ _ h.cur hl
    exact ⟨congrArg some h1, h2, h.saved⟩
  | reset off => exact ⟨rfl, head_fwd file bs off, h.saved⟩
  | resetTail k => exact ⟨rfl, tail_fwd file bs k hl.1 hl.2.1 hl.2.2, h.saved⟩
  | save => exact ⟨rfl, h.cur, h.saved.snoc h.cur⟩
  | restore i => exact ⟨rfl, h.saved.get hl, h.saved⟩

theorem step_bwd (file : Bytes) (bs : Nat) (hbs : 0 < bs) (s : BufSt) (t : CurSt) (op : BufOp)
    (h : StRel (InvB file) s t) (hl : BackwardLegal file t op) :
    (bufStep file bs s op).2 = (curStep file bs t op).2 ∧
      StRel (InvB file) (bufStep file bs s op).1 (curStep file bs t op).1 := by
  cases op with
  | current =>
    obtain ⟨h1, h2, _⟩ := current_bwd file bs hbs _ _ h.cur
    exact ⟨congrArg some h1, h2, h.saved⟩
  | next =>
    obtain ⟨h1, h2⟩ := next_bwd file bs hbs _ _ h.cur hl
    exact ⟨congrArg some h1, h2, h.saved⟩
  | prev =>
    obtain ⟨h1, h2⟩ := prev_bwd file bs hbs _ _ h.cur
    exact ⟨congrArg some h1, h2, h.saved⟩
  | reset off => exact ⟨rfl, head_bwd file bs off hbs hl, h.saved⟩
  | resetTail k => exact ⟨rfl, tail_bwd file k, h.saved⟩
  | save => exact ⟨rfl, h.cur, h.saved.snoc h.cur⟩
  | restore i => exact ⟨rfl, h.saved.get hl, h.saved⟩

end PdfReader
