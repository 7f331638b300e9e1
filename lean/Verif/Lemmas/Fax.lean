/-
  Lemmas on the fax decoder: its trees, its searches, and the invariant of a line in progress.
-/
import Verif.Model.Fax
import Verif.Spec.Fax
import Verif.Lemmas.Basic

namespace PdfReader
open Spec

/-! ### Bits -/

theorem masks_bits : ∀ b : Byte, byteMasks b = (List.range 8).map fun i => b.toNat.testBit (7 - i) :=
  forall_u8 _ (by decide +kernel)

theorem masks_length (b : Byte) : (byteMasks b).length = 8 := by simp [byteMasks]

theorem dataBits_cons (b : Byte) (bs : Bytes) : dataBits (b :: bs) = byteMasks b ++ dataBits bs := by simp [dataBits, masks_bits]

theorem dataBits_nil : dataBits [] = [] := rfl

theorem dataBits_append (a b : Bytes) : dataBits (a ++ b) = dataBits a ++ dataBits b := by simp [dataBits]

theorem dataBits_dvd (bs : Bytes) : 8 ∣ (dataBits bs).length := by
  induction bs with
  | nil => exact ⟨0, rfl⟩
  | cons b bs ih =>
    obtain ⟨k, hk⟩ := ih
    refine ⟨k + 1, ?_⟩
    rw [dataBits_cons, List.length_append, masks_length, hk]
    omega

/-- What happens after a bit. -/
def Fax.next (run : Fax → List Bool → Fax × FaxSignal) (r : Fax × FaxSignal) (bs : List Bool) : Fax × FaxSignal :=
  match r with
  | (s, .go) => run s bs
  | (s, .skip) => run { s with wait := .mode modeTree } (bs.drop (bs.length % 8))
  | (s, .eofb) => (s, .go)
  | r => r

/-- Decoding of bits; after ByteSkip it goes on with the next byte. -/
def Fax.run (s : Fax) (bits : List Bool) : Fax × FaxSignal :=
  match bits with
  | [] => (s, .go)
  | b :: bs =>
    match s.bit b with
    | (s, .go) => Fax.run s bs
    | (s, .skip) => Fax.run { s with wait := .mode modeTree } (bs.drop (bs.length % 8))
    | (s, .eofb) => (s, .go)
    | r => r
termination_by bits.length
decreasing_by
  · simp
  · simp only [List.length_drop, List.length_cons]; omega

theorem run_nil (s : Fax) : s.run [] = (s, .go) := by unfold Fax.run; rfl

theorem run_cons (s : Fax) (b : Bool) (bs : List Bool) : s.run (b :: bs) = Fax.next Fax.run (s.bit b) bs := by
  rw [Fax.run]
  rcases s.bit b with ⟨s', e⟩
  cases e <;> rfl

theorem run_byte (l : List Bool) : ∀ (s : Fax) (r : List Bool), l.length ≤ 8 → 8 ∣ r.length →
    s.run (l ++ r) = match s.bitsOn l with
      | (s, .go) => s.run r
      | (s, .skip) => Fax.run { s with wait := .mode modeTree } r
      | (s, .eofb) => (s, .go)
      | q => q := by
  induction l with
  | nil => intro s r _ _; rfl
  | cons b l ih =>
    intro s r hl hr
    rw [List.cons_append, run_cons]
    unfold Fax.bitsOn
    rcases s.bit b with ⟨s', e⟩
    cases e with
    | go =>
      show s'.run (l ++ r) = _
      rw [ih s' r (by simp at hl; omega) hr]
    | skip =>
      show Fax.run _ ((l ++ r).drop ((l ++ r).length % 8)) = _
      have : (l ++ r).length % 8 = l.length := by
        obtain ⟨k, hk⟩ := hr
        simp only [List.length_cons] at hl
        rw [List.length_append, hk]
        omega
      rw [this, List.drop_left]
    | eofb => rfl
    | invalid => rfl
    | index => rfl

theorem feed_run (data : Bytes) : ∀ s : Fax, s.feed data = s.run (dataBits data) := by
  induction data with
  | nil => intro s; rw [dataBits_nil, run_nil]; rfl
  | cons b bs ih =>
    intro s
    rw [dataBits_cons, run_byte _ s _ (by rw [masks_length]; exact Nat.le_refl 8) (dataBits_dvd bs)]
    unfold Fax.feed
    rcases s.bitsOn (byteMasks b) with ⟨s', e⟩
    cases e
    · exact ih s'
    · exact ih _
    · rfl
    · rfl
    · rfl

/-! ### Codes -/

/-- The value at the end of a path, if all before it are inner nodes. -/
def FaxTree.follow {α : Type} : FaxTree α → List Bool → Option α
  | .leaf _, _ => none
  | .node _ _, [] => none
  | .node zero one, b :: bs =>
    match (if b then one else zero), bs with
    | .leaf v, [] => v
    | .leaf _, _ :: _ => none
    | .node z o, bs => FaxTree.follow (.node z o) bs

theorem run_mode (code : List Bool) : ∀ (s : Fax) (t : FaxTree FaxMode) (m : FaxMode) (rest : List Bool), s.wait = .mode t → t.follow code = some m →
    ∃ x, s.run (code ++ rest) = Fax.next Fax.run (Fax.onMode { s with wait := x } (some m)) rest := by
  induction code with
  | nil => intro s t m rest _ h; cases t <;> simp [FaxTree.follow] at h
  | cons b bs ih =>
    intro s t m rest hw h
    cases t with
    | leaf v => simp [FaxTree.follow] at h
    | node zero one =>
      rw [List.cons_append, run_cons]
      unfold Fax.bit
      rw [hw]
      dsimp only [FaxTree.branch]
      unfold FaxTree.follow at h
      generalize hq : (if b = true then one else zero) = q at h ⊢
      cases q with
      | leaf v =>
        cases bs with
        | nil => exact ⟨s.wait, by rw [show v = some m from h]; rfl⟩
        | cons b' bs' => simp at h
      | node z o => exact ih { s with wait := .mode (.node z o) } (.node z o) m rest rfl h

theorem run_horiz1 (code : List Bool) : ∀ (s : Fax) (t : FaxTree Nat) (n : Nat) (rest : List Bool), s.wait = .horiz1 t → t.follow code = some n →
    ∃ x, s.run (code ++ rest) = Fax.next Fax.run (Fax.onHoriz1 { s with wait := x } (some n)) rest := by
  induction code with
  | nil => intro s t m rest _ h; cases t <;> simp [FaxTree.follow] at h
  | cons b bs ih =>
    intro s t m rest hw h
    cases t with
    | leaf v => simp [FaxTree.follow] at h
    | node zero one =>
      rw [List.cons_append, run_cons]
      unfold Fax.bit
      rw [hw]
      dsimp only [FaxTree.branch]
      unfold FaxTree.follow at h
      generalize hq : (if b = true then one else zero) = q at h ⊢
      cases q with
      | leaf v =>
        cases bs with
        | nil => exact ⟨s.wait, by rw [show v = some m from h]; rfl⟩
        | cons b' bs' => simp at h
      | node z o => exact ih { s with wait := .horiz1 (.node z o) } (.node z o) m rest rfl h

theorem run_horiz2 (code : List Bool) : ∀ (s : Fax) (t : FaxTree Nat) (n : Nat) (rest : List Bool), s.wait = .horiz2 t → t.follow code = some n →
    ∃ x, s.run (code ++ rest) = Fax.next Fax.run (Fax.onHoriz2 { s with wait := x } (some n)) rest := by
  induction code with
  | nil => intro s t m rest _ h; cases t <;> simp [FaxTree.follow] at h
  | cons b bs ih =>
    intro s t m rest hw h
    cases t with
    | leaf v => simp [FaxTree.follow] at h
    | node zero one =>
      rw [List.cons_append, run_cons]
      unfold Fax.bit
      rw [hw]
      dsimp only [FaxTree.branch]
      unfold FaxTree.follow at h
      generalize hq : (if b = true then one else zero) = q at h ⊢
      cases q with
      | leaf v =>
        cases bs with
        | nil => exact ⟨s.wait, by rw [show v = some m from h]; rfl⟩
        | cons b' bs' => simp at h
      | node z o => exact ih { s with wait := .horiz2 (.node z o) } (.node z o) m rest rfl h

theorem codes_at {f : List Bool → Option Nat} {g : Nat → Nat} (l : List (List Bool)) (h : l.zipIdx.all (fun e => decide (f e.1 = some (g e.2))) = true) (n : Nat) (code : List Bool)
    (hn : l[n]? = some code) : f code = some (g n) := by
  have hm : (code, n) ∈ l.zipIdx := by
    rw [List.mem_zipIdx_iff_getElem?]
    exact hn
  have := List.all_eq_true.mp h _ hm
  exact of_decide_eq_true this

set_option maxRecDepth 20000 in
theorem white_terminating : whiteTerminating.zipIdx.all (fun e => decide (whiteTree.follow e.1 = some (id e.2))) = true := by decide +kernel
set_option maxRecDepth 20000 in
theorem black_terminating : blackTerminating.zipIdx.all (fun e => decide (blackTree.follow e.1 = some (id e.2))) = true := by decide +kernel
set_option maxRecDepth 20000 in
theorem white_makeUp : whiteMakeUp.zipIdx.all (fun e => decide (whiteTree.follow e.1 = some ((fun n => 64 * (n + 1)) e.2))) = true := by decide +kernel
set_option maxRecDepth 20000 in
theorem black_makeUp : blackMakeUp.zipIdx.all (fun e => decide (blackTree.follow e.1 = some ((fun n => 64 * (n + 1)) e.2))) = true := by decide +kernel
set_option maxRecDepth 20000 in
theorem white_common : commonMakeUp.zipIdx.all (fun e => decide (whiteTree.follow e.1 = some ((fun n => 64 * (n + 28)) e.2))) = true := by decide +kernel
set_option maxRecDepth 20000 in
theorem black_common : commonMakeUp.zipIdx.all (fun e => decide (blackTree.follow e.1 = some ((fun n => 64 * (n + 28)) e.2))) = true := by decide +kernel

theorem terminating_code (c : Bool) (n : Nat) (code : List Bool) (h : (if c then whiteTerminating else blackTerminating)[n]? = some code) :
    (runTree c).follow code = some n ∧ n < 64 := by
  cases c
  · refine ⟨codes_at (f := blackTree.follow) (g := id) _ black_terminating n code h, ?_⟩
    obtain ⟨hn, _⟩ := List.getElem?_eq_some_iff.mp h
    exact hn
  · refine ⟨codes_at (f := whiteTree.follow) (g := id) _ white_terminating n code h, ?_⟩
    obtain ⟨hn, _⟩ := List.getElem?_eq_some_iff.mp h
    exact hn

theorem makeUp_code (c : Bool) (i : Nat) (code : List Bool) (h : (if c then whiteMakeUp else blackMakeUp)[i]? = some code) :
    (runTree c).follow code = some (64 * (i + 1)) := by
  cases c
  · exact codes_at (f := blackTree.follow) (g := fun n => 64 * (n + 1)) _ black_makeUp i code h
  · exact codes_at (f := whiteTree.follow) (g := fun n => 64 * (n + 1)) _ white_makeUp i code h

theorem common_code (c : Bool) (i : Nat) (code : List Bool) (h : commonMakeUp[i]? = some code) : (runTree c).follow code = some (64 * (i + 28)) := by
  cases c
  · exact codes_at (f := blackTree.follow) (g := fun n => 64 * (n + 28)) _ black_common i code h
  · exact codes_at (f := whiteTree.follow) (g := fun n => 64 * (n + 28)) _ white_common i code h

theorem vertical_code : ∀ e ∈ verticalCodes, modeTree.follow e.2 = some (.vertical e.1) := by decide +kernel

theorem pass_code : modeTree.follow bits!"0001" = some .pass := by decide +kernel
theorem horizontal_code : modeTree.follow bits!"001" = some .horizontal := by decide +kernel
theorem eofb_code : modeTree.follow eofb = some .eofb := by decide +kernel

/-- The first run of horizontal mode. -/
theorem run_first (c : Bool) (n : Nat) (bits : List Bool) (h : RunCode c n bits) : ∀ (s : Fax) (rest : List Bool), s.wait = .horiz1 (runTree c) → s.color = c →
    s.run (bits ++ rest) = Fax.run { s with n1 := s.n1 + n, n2 := 0, color := !c, wait := .horiz2 (runTree (!c)) } rest := by
  induction h with
  | terminating n code hc =>
    intro s rest hw hs
    obtain ⟨hf, hn⟩ := terminating_code c n code hc
    obtain ⟨x, e⟩ := run_horiz1 code s _ n rest hw hf
    rw [e]
    unfold Fax.onHoriz1
    dsimp only
    rw [if_pos hn, hs]
    rfl
  | makeUp i n code bits hc _ ih =>
    intro s rest hw hs
    obtain ⟨x, e⟩ := run_horiz1 code s _ _ (bits ++ rest) hw (makeUp_code c i code hc)
    rw [List.append_assoc, e]
    unfold Fax.onHoriz1
    dsimp only
    rw [if_neg (by omega)]
    show Fax.run _ _ = _
    refine (ih _ rest ?_ ?_).trans ?_
    · dsimp only; rw [hs]
    · exact hs
    dsimp only
    rw [Nat.add_assoc]
  | common i n code bits hc _ ih =>
    intro s rest hw hs
    obtain ⟨x, e⟩ := run_horiz1 code s _ _ (bits ++ rest) hw (common_code c i code hc)
    rw [List.append_assoc, e]
    unfold Fax.onHoriz1
    dsimp only
    rw [if_neg (by omega)]
    show Fax.run _ _ = _
    refine (ih _ rest ?_ ?_).trans ?_
    · dsimp only; rw [hs]
    · exact hs
    dsimp only
    rw [Nat.add_assoc]

theorem finish_wait (s : Fax) (x : FaxWait) (a b : Nat) : Fax.finish (Fax.horizontal { s with wait := x } a b, .go) = Fax.finish (Fax.horizontal s a b, .go) := by
  unfold Fax.finish Fax.flush Fax.horizontal
  dsimp only
  split <;> rfl

/-- The second run of horizontal mode. -/
theorem run_second (c : Bool) (n : Nat) (bits : List Bool) (h : RunCode c n bits) : ∀ (s : Fax) (rest : List Bool), s.wait = .horiz2 (runTree c) → s.color = c →
    s.run (bits ++ rest) = Fax.next Fax.run (Fax.finish (Fax.horizontal { s with n2 := s.n2 + n, color := !c } s.n1 (s.n2 + n), .go)) rest := by
  induction h with
  | terminating n code hc =>
    intro s rest hw hs
    obtain ⟨hf, hn⟩ := terminating_code c n code hc
    obtain ⟨x, e⟩ := run_horiz2 code s _ n rest hw hf
    rw [e]
    unfold Fax.onHoriz2
    dsimp only
    rw [if_pos hn, hs]
    exact congrArg (fun r => Fax.next Fax.run r rest) (finish_wait { s with n2 := s.n2 + n, color := !c } x s.n1 (s.n2 + n))
  | makeUp i n code bits hc _ ih =>
    intro s rest hw hs
    obtain ⟨x, e⟩ := run_horiz2 code s _ _ (bits ++ rest) hw (makeUp_code c i code hc)
    rw [List.append_assoc, e]
    unfold Fax.onHoriz2
    dsimp only
    rw [if_neg (by omega)]
    show Fax.run _ _ = _
    refine (ih _ rest ?_ ?_).trans ?_
    · dsimp only; rw [hs]
    · exact hs
    dsimp only
    rw [Nat.add_assoc]
    exact congrArg (fun r => Fax.next Fax.run r rest) (finish_wait { s with n2 := _, color := !c } _ _ _)
  | common i n code bits hc _ ih =>
    intro s rest hw hs
    obtain ⟨x, e⟩ := run_horiz2 code s _ _ (bits ++ rest) hw (common_code c i code hc)
    rw [List.append_assoc, e]
    unfold Fax.onHoriz2
    dsimp only
    rw [if_neg (by omega)]
    show Fax.run _ _ = _
    refine (ih _ rest ?_ ?_).trans ?_
    · dsimp only; rw [hs]
    · exact hs
    dsimp only
    rw [Nat.add_assoc]
    exact congrArg (fun r => Fax.next Fax.run r rest) (finish_wait { s with n2 := _, color := !c } _ _ _)

/-! ### Searches and pixels -/

theorem seekChange_eq (ref : List Bool) (c : Bool) (x : Nat) : seekChange ref c x =
    if ref.length < x then none
    else if x = 0 then
      if c then
        match ref.head? with
        | none => none
        | some p => if p ≠ c then some 0 else seekChange ref c 1
      else seekChange ref c 1
    else if x = ref.length then some x
    else if ref[x - 1]? = some c ∧ ref[x]? ≠ some c then some x
    else seekChange ref c (x + 1) := by
  unfold seekChange
  by_cases h : ref.length < x
  · rw [if_pos h, show ref.length + 1 - x = 0 by omega]
    rfl
  · rw [if_neg h, show ref.length + 1 - x = (ref.length + 1 - (x + 1)) + 1 by omega]
    conv => lhs; unfold seekLoop
    by_cases h0 : x = 0
    · subst h0
      simp only [↓reduceIte, Nat.zero_add]
      rfl
    · rw [if_neg h0, if_neg h0]

theorem seek_first (ref : List Bool) (c : Bool) (b : Nat) (hl : 0 < ref.length) : ∀ (k x : Nat), ref.length - x = k →
    First ref.length x (fun i => Changing ref i ∧ ref[i]? ≠ some c) b → seekChange ref c x = some b := by
  intro k
  induction k with
  | zero =>
    intro x hk ⟨h1, h2, _, _⟩
    have hx : x = ref.length := by omega
    have hb : b = ref.length := by omega
    rw [seekChange_eq]
    rw [if_neg (by omega), if_neg (by omega), if_pos hx, hb, hx]
  | succ k ih =>
    intro x hk hf
    have hx : x < ref.length := by omega
    have hstep : b ≠ x → seekChange ref c (x + 1) = some b := by
      intro hne
      refine ih (x + 1) (by omega) ?_
      obtain ⟨h1, h2, h3, h4⟩ := hf
      exact ⟨by omega, h2, h3, fun j hj hj' => h4 j (by omega) hj'⟩
    have here : (Changing ref x ∧ ref[x]? ≠ some c) ↔ b = x := by
      obtain ⟨h1, h2, h3, h4⟩ := hf
      constructor
      · intro hp
        rcases Nat.lt_or_ge x b with hlt | hge
        · exact absurd hp (h4 x (Nat.le_refl x) hlt)
        · omega
      · intro e
        subst e
        exact h3 hx
    rw [seekChange_eq]
    rw [if_neg (by omega)]
    by_cases h0 : x = 0
    · rw [if_pos h0]
      subst h0
      obtain ⟨p, r, rfl⟩ : ∃ p r, ref = p :: r := by
        cases ref with
        | nil => simp at hl
        | cons p r => exact ⟨p, r, rfl⟩
      have hchg : (Changing (p :: r) 0 ∧ (p :: r)[0]? ≠ some c) ↔ (c = true ∧ p = false) := by
        simp [Changing, before]
        cases p <;> cases c <;> simp
      cases c with
      | false =>
        rw [if_neg (by simp)]
        exact hstep (fun e => by have := hchg.mp (here.mpr e); simp at this)
      | true =>
        rw [if_pos rfl]
        dsimp only [List.head?]
        cases p with
        | true =>
          rw [if_neg (by simp)]
          exact hstep (fun e => by have := hchg.mp (here.mpr e); simp at this)
        | false =>
          rw [if_pos (by simp)]
          rw [here.mp (hchg.mpr ⟨rfl, rfl⟩)]
    · rw [if_neg h0, if_neg (by omega)]
      have hchg : (Changing ref x ∧ ref[x]? ≠ some c) ↔ (ref[x - 1]? = some c ∧ ref[x]? ≠ some c) := by
        unfold Changing before
        rw [if_neg h0]
        have hx1 : x - 1 < ref.length := by omega
        rw [List.getElem?_eq_getElem hx, List.getElem?_eq_getElem hx1]
        generalize ref[x] = p
        generalize ref[x - 1] = q
        cases p <;> cases q <;> cases c <;> simp [hx]
      by_cases hp : ref[x - 1]? = some c ∧ ref[x]? ≠ some c
      · rw [if_pos hp, here.mp (hchg.mpr hp)]
      · rw [if_neg hp]
        exact hstep (fun e => hp (hchg.mp (here.mpr e)))

/-- b1 and b2 as the decoder finds them. -/
theorem seek_b1 (ref : List Bool) (c : Bool) (a0 : Int) (b1 : Nat) (hl : 0 < ref.length) (h : B1 ref a0 c b1) : seekChange ref c (a0 + 1).toNat = some b1 :=
  seek_first ref c b1 hl _ _ rfl h

theorem seek_b2 (ref : List Bool) (c : Bool) (a0 : Int) (b1 b2 : Nat) (hl : 0 < ref.length) (h1 : B1 ref a0 c b1) (h2 : B2 ref b1 b2) :
    seekChange ref (!c) b1 = some b2 := by
  apply seek_first ref (!c) b2 hl _ _ rfl
  obtain ⟨-, hb1, hp, -⟩ := h1
  obtain ⟨k1, k2, k3, k4⟩ := h2
  rcases Nat.lt_or_ge b1 ref.length with hlt | hge
  · have hm : min (b1 + 1) ref.length = b1 + 1 := by omega
    rw [hm] at k1 k4
    have hc := (hp hlt).2
    rw [List.getElem?_eq_getElem hlt] at hc
    have hc1 : ref[b1] = !c := by
      generalize ref[b1] = p at hc
      cases p <;> cases c <;> simp_all
    have hrun : ∀ d, b1 + d < b2 → ref[b1 + d]? = some (!c) := by
      intro d
      induction d with
      | zero => intro _; rw [Nat.add_zero, List.getElem?_eq_getElem hlt, hc1]
      | succ d ih =>
        intro hd
        have hn := k4 (b1 + (d + 1)) (by omega) hd
        have hin : b1 + (d + 1) < ref.length := by omega
        unfold Changing before at hn
        rw [if_neg (by omega), show b1 + (d + 1) - 1 = b1 + d by omega, ih (by omega)] at hn
        exact Classical.byContradiction fun hx => hn ⟨hin, hx⟩
    refine ⟨by omega, k2, ?_, ?_⟩
    · intro hb
      have hch := k3 hb
      refine ⟨hch, ?_⟩
      have hlast := hrun (b2 - 1 - b1) (by omega)
      rw [show b1 + (b2 - 1 - b1) = b2 - 1 by omega] at hlast
      have := hch.2
      unfold before at this
      rw [if_neg (by omega), hlast] at this
      exact this
    · intro j hj hj' ⟨_, hx⟩
      have := hrun (j - b1) (by omega)
      rw [show b1 + (j - b1) = j by omega] at this
      exact hx this
  · have : b1 = ref.length := by omega
    have hm : min (b1 + 1) ref.length = ref.length := by omega
    rw [hm] at k1
    refine ⟨by omega, k2, fun hb => by omega, ?_⟩
    intro j hj hj'
    omega

theorem fill_pixels (c : Bool) : ∀ (n : Nat) (l : List Bool) (x : Nat), x + n ≤ l.length →
    ∃ l', fillPixels l x c n = some l' ∧ l'.length = l.length ∧ ∀ i : Nat, l'[i]? = if x ≤ i ∧ i < x + n then some c else l[i]? := by
  intro n
  induction n with
  | zero => intro l x _; exact ⟨l, rfl, rfl, fun i => by rw [if_neg (by omega)]⟩
  | succ n ih =>
    intro l x h
    unfold fillPixels putPixel
    rw [if_pos (by omega), if_pos (by omega)]
    dsimp only
    obtain ⟨l', e, hl, hi⟩ := ih (l.set x c) (x + 1) (by rw [List.length_set]; omega)
    refine ⟨l', ?_, by rw [hl, List.length_set], ?_⟩
    · rw [Int.toNat_natCast]
      exact e
    · intro i
      rw [hi, List.getElem?_set]
      by_cases hxi : x = i
      · subst hxi
        rw [if_neg (by omega), if_pos rfl, if_pos (by omega), if_pos (by omega)]
      · rw [if_neg hxi]
        by_cases hq : x + 1 ≤ i ∧ i < x + 1 + n
        · rw [if_pos hq, if_pos (by omega)]
        · rw [if_neg hq, if_neg (by omega)]

theorem run_pixels (c : Bool) : ∀ (n : Nat) (l : List Bool) (x : Nat), x + n ≤ l.length →
    ∃ l', runPixels l x c n = (l', x + n) ∧ l'.length = l.length ∧ ∀ i : Nat, l'[i]? = if x ≤ i ∧ i < x + n then some c else l[i]? := by
  intro n
  induction n with
  | zero => intro l x _; exact ⟨l, rfl, rfl, fun i => by rw [if_neg (by omega)]⟩
  | succ n ih =>
    intro l x h
    unfold runPixels
    rw [if_neg (by omega)]
    obtain ⟨l', e, hl, hi⟩ := ih (l.set x c) (x + 1) (by rw [List.length_set]; omega)
    refine ⟨l', by rw [e, Nat.add_assoc, Nat.add_comm 1 n], by rw [hl, List.length_set], ?_⟩
    intro i
    rw [hi, List.getElem?_set]
    by_cases hxi : x = i
    · subst hxi
      rw [if_neg (by omega), if_pos rfl, if_pos (by omega), if_pos (by omega)]
    · rw [if_neg hxi]
      by_cases hq : x + 1 ≤ i ∧ i < x + 1 + n
      · rw [if_pos hq, if_pos (by omega)]
      · rw [if_neg hq, if_neg (by omega)]

end PdfReader
