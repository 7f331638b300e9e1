/-
  Termination of the functions of Verif/Model/Document.lean and of the chain of sections.
-/
import Verif.Lemmas.Document

namespace PdfReader
open Spec

theorem takeTo_inv {p : Byte → Bool} {x a r : Bytes} (h : takeTo p x = some (a, r)) : x = a ++ r ∧ r ≠ [] := by
  induction x generalizing a r with
  | nil => cases h
  | cons c x ih =>
    rw [takeTo] at h
    split at h
    · cases h; simp
    · rw [Option.map_eq_some_iff] at h
      obtain ⟨q, hq, e⟩ := h
      cases e
      obtain ⟨e1, e2⟩ := ih (a := q.1) (r := q.2) hq
      exact ⟨by rw [e1]; rfl, e2⟩

theorem dropEol_le (x : Bytes) : (dropEol x).length ≤ x.length := by
  cases x with
  | nil => simp [dropEol]
  | cons c r =>
    rw [dropEol]
    split
    · split
      · simp; omega
      · simp
    · split
      · simp
      · simp

theorem xrefRange_noDiv (x : Bytes) : xrefRange x ≠ .error .diverges := by
  unfold xrefRange
  split
  · simp
  · split
    · simp
    · split <;> simp

theorem xrefRange_lt {x r : Bytes} {p : Int × Int} (h : xrefRange x = .ok (p, r)) : r.length < x.length := by
  unfold xrefRange at h
  split at h
  · cases h
  · rename_i d1 r1 h1
    split at h
    · cases h
    · rename_i d2 r2 h2
      split at h
      · cases h
        obtain ⟨e1, n1⟩ := takeTo_inv h1
        obtain ⟨e2, n2⟩ := takeTo_inv h2
        have := dropEol_le r2
        have l1 := congrArg List.length e1
        have l2 := congrArg List.length e2
        have := List.length_pos_iff.mpr n1
        simp at l1 l2
        omega
      · cases h

theorem xrefEntry_noDiv (x : Bytes) : xrefEntry x ≠ .error .diverges := by
  unfold xrefEntry
  split
  · simp
  · split
    · split
      · simp
      · split <;> simp
    · simp

theorem xrefEntries_fine (n : Nat) : ∀ (num : Nat) (x : XRef) (inp : Bytes),
    xrefEntries n num x inp ≠ .error .diverges ∧ ∀ x' r, xrefEntries n num x inp = .ok (x', r) → r.length ≤ inp.length := by
  induction n with
  | zero => intro num x inp; simp only [xrefEntries]; exact ⟨by simp, fun x' r h => by cases h; exact Nat.le_refl _⟩
  | succ n ih =>
    intro num x inp
    rw [xrefEntries]
    split
    · rename_i e h
      rcases dropErr (readN_good 20 inp) h with rfl | rfl <;> simp
    · rename_i raw r h
      have hl := (dropOk (readN_good 20 inp) h).2
      split
      · rename_i e h2
        refine ⟨fun h3 => ?_, by simp⟩
        cases h3
        exact xrefEntry_noDiv _ h2
      · split
        · simp
        · rename_i off gen use _ _
          obtain ⟨h1, h2⟩ := ih (num + 1) (x.add num ⟨off.toNat, gen.toNat⟩ use) r
          exact ⟨h1, fun x' r' h3 => by have := h2 x' r' h3; omega⟩

theorem xrefSubs_noDiv : ∀ (fuel : Nat) (x : XRef) (inp : Bytes), inp.length < fuel → xrefSubs fuel x inp ≠ .error .diverges := by
  intro fuel
  induction fuel with
  | zero => intro x inp h; omega
  | succ fuel ih =>
    intro x inp h
    rw [xrefSubs.eq_def]
    simp only
    split
    · simp
    · rename_i c t
      split
      · split
        · rename_i e h1
          intro h2
          cases h2
          exact xrefRange_noDiv _ h1
        · rename_i a n r h1
          have := xrefRange_lt h1
          obtain ⟨g1, g2⟩ := xrefEntries_fine n.toNat a.toNat x r
          split
          · rename_i e h2
            intro h3
            cases h3
            exact g1 h2
          · rename_i x' r' h2
            have := g2 _ _ h2
            exact ih _ _ (by omega)
      · simp

theorem directXref_noDiv (inp : Bytes) : directXref inp ≠ .error .diverges := by
  unfold directXref
  split
  · rename_i e h
    rcases dropErr (readN_good 4 inp) h with rfl | rfl <;> simp
  · split
    · split
      · rename_i e h
        rw [skipSC_err h]; simp
      · exact xrefSubs_noDiv _ _ _ (by omega)
    · simp

theorem directXref_pos {inp : Bytes} {p} (h : directXref inp = .ok p) : 0 < inp.length := by
  cases inp with
  | nil => cases h
  | cons c r => simp

theorem dictionaryP_noDiv {cfg : Cfg} (hc : cfg.NoDiv) (inp : Bytes) : dictionaryP cfg inp ≠ .error .diverges := by
  unfold dictionaryP
  split
  · rename_i e h
    rcases dropErr (readN_good 2 inp) h with rfl | rfl <;> simp
  · rename_i t r h
    have hl := (dropOk (readN_good 2 inp) h).2
    split
    · split
      · rename_i e h
        rw [skipSC_err h]; simp
      · rename_i r1 h1
        have hl1 := (skipSC_ok h1).length_le
        intro h2
        rcases dropErr ((parser_good (fuelFor inp)).2.2.1 cfg [] r1) h2 with (h | h | ⟨f, n, g, h3, h4⟩) | h
        · rcases h with h | h <;> cases h
        · cases h
        · exact hc f n g h3 h4
        · unfold fuelFor at h; omega
    · simp

theorem trailerP_noDiv {cfg : Cfg} (hc : cfg.NoDiv) (inp : Bytes) : trailerP cfg inp ≠ .error .diverges := by
  unfold trailerP
  split
  · rename_i e h
    rcases dropErr (readN_good 7 inp) h with rfl | rfl <;> simp
  · split
    · split
      · rename_i e h
        rw [skipSC_err h]; simp
      · exact dictionaryP_noDiv hc _
    · simp

theorem prevOffset_noDiv (o : Option Obj) : prevOffset o ≠ .error .diverges := by
  unfold prevOffset
  split
  · simp
  · split
    · split
      · split <;> simp
      · simp
      · simp
    · simp

theorem tableSection_noDiv {cfg : Cfg} (hc : cfg.NoDiv) (file : Bytes) (off : Nat) : tableSection cfg file off ≠ .error .diverges := by
  unfold tableSection
  split
  · rename_i e h; intro h2; cases h2; exact directXref_noDiv _ h
  · split
    · rename_i e h; rw [skipSC_err h]; simp
    · split
      · rename_i e h; intro h2; cases h2; exact trailerP_noDiv hc _ h
      · split
        · rename_i e h; intro h2; cases h2; exact prevOffset_noDiv _ h
        · simp

theorem tableSection_lt {cfg : Cfg} {file : Bytes} {off : Nat} {s : Section} (h : tableSection cfg file off = .ok s) : off < file.length := by
  unfold tableSection at h
  split at h
  · cases h
  · rename_i x r h1
    have := directXref_pos h1
    simp at this
    omega

theorem objHeader_noDiv (inp : Bytes) : objHeader inp ≠ .error .diverges := by
  unfold objHeader
  split
  · rename_i e h; rcases dropErr (nonNegInt_good _) h with rfl | rfl <;> simp
  · split
    · rename_i e h; rw [skipSC_err h]; simp
    · split
      · rename_i e h; rcases dropErr (nonNegInt_good _) h with rfl | rfl <;> simp
      · split
        · rename_i e h; rw [skipSC_err h]; simp
        · split
          · rename_i e h; rcases dropErr (readN_good _ _) h with rfl | rfl <;> simp
          · split
            · split
              · rename_i e h; rw [skipSC_err h]; simp
              · simp
            · simp

theorem objTail_noDiv (v : Obj) (r : Bytes) : objTail v r ≠ .error .diverges := by
  unfold objTail
  split
  · rename_i e h; rw [skipSC_err h]; simp
  · split
    · rename_i e h; rcases dropErr (readN_good _ _) h with rfl | rfl <;> simp
    · split
      · simp
      · split <;> simp

theorem parseObject_noDiv {cfg : Cfg} (hc : cfg.NoDiv) (inp : Bytes) : parseObject cfg inp ≠ .error .diverges :=
  objectP_noDiv hc (by unfold fuelFor; omega)

theorem indirectObject_noDiv {cfg : Cfg} (hc : cfg.NoDiv) (inp : Bytes) : indirectObject cfg inp ≠ .error .diverges := by
  unfold indirectObject
  split
  · rename_i e h; intro h2; cases h2; exact objHeader_noDiv _ h
  · split
    · rename_i e h; intro h2; cases h2; exact parseObject_noDiv hc _ h
    · split
      · rename_i e h; intro h2; cases h2; exact objTail_noDiv _ _ h
      · split <;> simp

theorem objHeader_pos {inp : Bytes} {p} (h : objHeader inp = .ok p) : 0 < inp.length := by
  cases inp with
  | nil => cases h
  | cons c r => simp

theorem prevStreamOffset_noDiv (o : Option Obj) : prevStreamOffset o ≠ .error .diverges := by
  unfold prevStreamOffset
  split <;> first | (split <;> simp; done) | simp

theorem xrefFromStream_noDiv (d : List (Bytes × Obj)) (data : Bytes) : xrefFromStream d data ≠ .error .diverges := by
  have hf : xrefFirst d ≠ .error .diverges := by
    unfold xrefFirst
    split
    · split
      · split <;> simp
      · simp
    · simp
    · split
      · simp
      · split <;> simp
  unfold xrefFromStream
  split
  · rename_i e h; intro h2; cases h2; exact hf h
  · split
    · simp
    · split
      · simp only
        split <;> simp
      · simp
      · simp
    · simp

theorem openCfg_noDiv : openCfg.NoDiv := by
  intro f n g h
  cases h
  simp

theorem streamSection_noDiv {filtered} (hf : ∀ d raw, filtered d raw ≠ (.error .diverges : Res Bytes)) (file : Bytes) (off : Nat) :
    streamSection filtered file off ≠ .error .diverges := by
  unfold streamSection
  split
  · rename_i e h; intro h2; cases h2; exact indirectObject_noDiv openCfg_noDiv _ h
  · split
    · simp
    · split
      · split
        · rename_i e h; intro h2; cases h2; exact hf _ _ h
        · split
          · rename_i e h; intro h2; cases h2; exact xrefFromStream_noDiv _ _ h
          · split
            · rename_i e h; intro h2; cases h2; exact prevStreamOffset_noDiv _ h
            · simp
      · simp
  · simp

theorem streamSection_lt {filtered} {file : Bytes} {off : Nat} {s : Section} (h : streamSection filtered file off = .ok s) : off < file.length := by
  have key : ∀ p, indirectObject openCfg (file.drop off) = .ok p → off < file.length := by
    intro p hp
    unfold indirectObject at hp
    split at hp
    · cases hp
    · rename_i q r h1
      have := objHeader_pos h1
      simp at this
      omega
  unfold streamSection at h
  split at h
  · cases h
  · rename_i h1; exact key _ h1
  · rename_i h1; exact key _ (by assumption)

/-! ### The chain -/

/-- `Follows sec a b`: the section at `a` is readable and names `b` as the previous one, in one or more
steps. -/
inductive Follows (sec : Nat → Res Section) : Nat → Nat → Prop
  | one (a b : Nat) (x : XRef) (d : List (Bytes × Obj)) : sec a = .ok (x, d, some b) → Follows sec a b
  | step (a b c : Nat) (x : XRef) (d : List (Bytes × Obj)) : sec a = .ok (x, d, some b) → Follows sec b c → Follows sec a c

theorem Follows.snoc {sec : Nat → Res Section} {a b c : Nat} {x : XRef} {d : List (Bytes × Obj)} (h : Follows sec a b)
    (hs : sec b = .ok (x, d, some c)) : Follows sec a c := by
  induction h with
  | one a b x' d' h => exact .step a b c x' d' h (.one b c x d hs)
  | step a b e x' d' h _ ih => exact .step a b c x' d' h (ih hs)

theorem nodup_bound (n : Nat) : ∀ l : List Nat, l.Nodup → (∀ x ∈ l, x < n) → l.length ≤ n := by
  induction n with
  | zero =>
    intro l _ h
    cases l with
    | nil => simp
    | cons a l => have := h a (by simp); omega
  | succ n ih =>
    intro l hn h
    have h1 := ih (l.erase n) (hn.erase n) (by
      intro x hx
      have := h x (List.mem_of_mem_erase hx)
      have : x ≠ n := fun e => by
        subst e
        exact (List.Nodup.mem_erase_iff hn).mp hx |>.1 rfl
      omega)
    have h2 := List.length_erase (a := n) (l := l)
    split at h2 <;> omega

theorem chain_terminates {sec : Nat → Res Section} {N : Nat} (hsec : ∀ a, sec a ≠ .error .diverges)
    (hlt : ∀ a s, sec a = .ok s → a < N) (off0 : Nat)
    (hac : ∀ a, (a = off0 ∨ Follows sec off0 a) → ¬ Follows sec a a) :
    ∀ (fuel off : Nat) (visited : List Nat), (off = off0 ∨ Follows sec off0 off) → visited.Nodup → (∀ v ∈ visited, v < N) →
      (∀ v ∈ visited, Follows sec v off) → N < visited.length + fuel → chain sec fuel off ≠ .error .diverges := by
  intro fuel
  induction fuel with
  | zero =>
    intro off visited _ hn hb _ hl
    have := nodup_bound N visited hn hb
    omega
  | succ fuel ih =>
    intro off visited ho hn hb hf hl
    rw [chain]
    split
    · rename_i e h; intro h2; cases h2; exact hsec _ h
    · simp
    · rename_i x d p h
      have hnext : p = off0 ∨ Follows sec off0 p := by
        right
        rcases ho with rfl | ho
        · exact .one _ _ _ _ h
        · exact ho.snoc h
      have := ih p (off :: visited) hnext ?_ ?_ ?_ ?_
      · split
        · rename_i e h2; intro h3; cases h3; exact this h2
        · simp
      · rw [List.nodup_cons]
        refine ⟨fun hm => ?_, hn⟩
        exact hac off ho (hf off hm)
      · intro v hv
        simp at hv
        rcases hv with rfl | hv
        · exact hlt _ _ h
        · exact hb v hv
      · intro v hv
        simp at hv
        rcases hv with rfl | hv
        · exact .one _ _ _ _ h
        · exact (hf v hv).snoc h
      · simp; omega

theorem chain_cycle {sec : Nat → Res Section} : ∀ (fuel a c : Nat), (a = c ∨ Follows sec a c) → Follows sec c c →
    chain sec fuel a = .error .diverges := by
  intro fuel
  induction fuel with
  | zero => intro a c _ _; rfl
  | succ fuel ih =>
    intro a c h1 h2
    have key : ∀ a, Follows sec a c → ∃ b x d, sec a = .ok (x, d, some b) ∧ (b = c ∨ Follows sec b c) := by
      intro a h
      cases h with
      | one _ _ x d h => exact ⟨c, x, d, h, Or.inl rfl⟩
      | step _ b _ x d h hb => exact ⟨b, x, d, h, Or.inr hb⟩
    have ha : Follows sec a c := by
      rcases h1 with rfl | h
      · exact h2
      · exact h
    obtain ⟨b, x, d, hs, hb⟩ := key a ha
    rw [chain, hs]
    simp only
    rw [ih b c hb h2]

end PdfReader
