/-
  Opening a whole file.
-/
import Verif.Spec.File
import Verif.Props.Document
import Verif.Props.Locate

namespace PdfReader
open Spec

theorem dictLoop_stable {cfg : Cfg} {f g : Nat} {acc inp} (hle : f ≤ g) (hf : dictLoop cfg f acc inp ≠ .error .diverges) :
    dictLoop cfg g acc inp = dictLoop cfg f acc inp := by
  induction hle with
  | refl => rfl
  | @step m _ ih =>
    rcases (fuel_mono m).2.2.1 cfg acc inp with h' | h'
    · rw [ih] at h'; exact absurd h' hf
    · rw [h', ih]

theorem dictLoop_total {cfg : Cfg} {f : Nat} {acc inp} {x} (hf : dictLoop cfg f acc inp ≠ .error .diverges)
    {g : Nat} (h : dictLoop cfg g acc inp = .ok x) : dictLoop cfg f acc inp = .ok x := by
  rcases Nat.le_total g f with hle | hle
  · exact dictLoop_more hle h
  · rw [← dictLoop_stable hle hf, h]

/-- A trailer dictionary. -/
theorem dictionaryP_text {cfg : Cfg} (hc : cfg.NoDiv) (hr : cfg.refs = true) {raw : List (Bytes × Obj)} {t : Bytes}
    (h : Den true (.ents raw) t) (x : Bytes) :
    dictionaryP cfg (60 :: 60 :: (t ++ 62 :: 62 :: x)) = .ok (dictOf raw, x) := by
  rw [← hr] at h
  obtain ⟨f, r0, h1, h2⟩ := den_parse cfg h x []
  have hd := dictionaryP_noDiv hc (60 :: 60 :: (t ++ 62 :: 62 :: x))
  unfold dictionaryP at hd ⊢
  have hread : readN 2 (60 :: 60 :: (t ++ 62 :: 62 :: x)) = .ok ([60, 60], t ++ 62 :: 62 :: x) := readN_append [60, 60] _
  rw [hread] at hd ⊢
  dsimp only at hd ⊢
  rw [if_pos rfl, h1] at hd ⊢
  dsimp only at hd ⊢
  rw [dictLoop_total hd h2, foldl_dictSet]

theorem trailerP_text {cfg : Cfg} (hc : cfg.NoDiv) (hr : cfg.refs = true) {raw : List (Bytes × Obj)} {t s : Bytes} (hs : Sep s)
    (h : Den true (.ents raw) t) (x : Bytes) :
    trailerP cfg (b!"trailer" ++ (s ++ (60 :: 60 :: (t ++ 62 :: 62 :: x)))) = .ok (dictOf raw, x) := by
  unfold trailerP
  have hread := readN_append b!"trailer" (s ++ (60 :: 60 :: (t ++ 62 :: 62 :: x)))
  simp only [List.length_cons, List.length_nil] at hread
  rw [hread]
  dsimp only
  rw [if_pos rfl, skipSC_sep hs (notSep_byte rfl (by decide))]
  exact dictionaryP_text hc hr h x

/-- The entries of a section agree with the specification. -/
def Agrees (x : XRef) (r : Revision) : Prop := ∀ n, (natGet x.inUse n).map (fun e => (e.offset, e.gen)) = r.inUse n

theorem prev_none {d : List (Bytes × Obj)} (h : dictGet d b!"Prev" = none) : prevOffset (dictGet d b!"Prev") = .ok none ∧ prevStreamOffset (dictGet d b!"Prev") = .ok none := by
  rw [h]; exact ⟨rfl, rfl⟩

theorem prev_some {d : List (Bytes × Obj)} {p : Nat} (h : dictGet d b!"Prev" = some (.int p)) (hp : 0 < p) :
    prevOffset (dictGet d b!"Prev") = .ok (some p) ∧ prevStreamOffset (dictGet d b!"Prev") = .ok (some p) := by
  rw [h]
  have h1 : truthy (.int (p : Int)) = true := by
    unfold truthy
    simp
    omega
  constructor
  · unfold prevOffset
    simp only
    rw [if_pos h1, if_neg (by omega)]
    simp
  · unfold prevStreamOffset
    simp only
    rw [if_neg (by omega)]
    simp

theorem table_reads {file : Bytes} {off : Nat} {r : Revision} (h : TableAt file off r) :
    (file.drop off).head? = some 120 ∧ ∃ x, Agrees x r ∧ ∀ p, prevOffset (dictGet r.dict b!"Prev") = .ok p →
      tableSection openCfg file off = .ok (x, r.dict, p) := by
  obtain ⟨s, subs, u, s₁, s₂, raw, t, rest, hfile, hs, hsubs, hne, hlast, hs1, hs2, hraw, hdict, _, huse⟩ := h
  refine ⟨by rw [hfile]; rfl, ?_⟩
  have hns : ∀ P : Byte → Prop, (∀ c, P c → ¬ SepChar c) → ¬ P 116 → NotStart P (s₁ ++ (b!"trailer" ++ (s₂ ++ (60 :: 60 :: (t ++ 62 :: 62 :: rest))))) := by
    intro P hP h116
    refine notStart_append ?_ (notStart_mk h116)
    intro c t' e hc
    have hne : s₁ ≠ [] := by rw [e]; simp
    obtain ⟨c', t2, e2, hc2⟩ := sep_start hs1 hne
    rw [e] at e2
    cases e2
    exact hP c hc hc2
  obtain ⟨x, h1, h2, _, _⟩ := C27_table s u (s₁ ++ (b!"trailer" ++ (s₂ ++ (60 :: 60 :: (t ++ 62 :: 62 :: rest))))) subs hs hsubs hne (by simp)
    (hns Digit (by
      intro c hc hc2
      rw [digit_iff] at hc
      have := digit_not_ws c hc
      rcases hc2 with h | h
      · rw [ws_iff, this.1] at h; cases h
      · exact this.2.1 h) (by rw [digit_iff]; decide))
    (fun h => notStart_append (hlast h) (notStart_mk (by decide)))
  refine ⟨x, fun n => (h2 n).trans (huse n).symm, fun p hp => ?_⟩
  unfold tableSection
  rw [hfile, h1]
  dsimp only
  rw [skipSC_sep hs1 (r := b!"trailer" ++ _) (notSep_byte rfl (by decide))]
  dsimp only
  rw [trailerP_text openCfg_noDiv rfl hs2 hraw rest]
  dsimp only
  rw [← hdict, hp]

theorem stream_reads {filtered : List (Bytes × Obj) → Bytes → Res Bytes} {file : Bytes} {off : Nat} {r : Revision}
    (h : XRefStreamAt (fun d raw data => filtered d raw = .ok data) file off r) :
    (file.drop off).head? ≠ some 120 ∧ ∃ x n g v rest, r.own = some (n, g, v) ∧ Agrees x r ∧
      indirectObject openCfg (file.drop off) = .ok ((n, g, v), rest) ∧ (∃ raw, v = .stream r.dict raw) ∧
      ∀ p, prevStreamOffset (dictGet r.dict b!"Prev") = .ok p → streamSection filtered file off = .ok (x, r.dict, p) := by
  obtain ⟨num, gen, raw, t, rest, first, w0, w1, w2, rows, hown, htext, hfile, htype, hidx, hW, hw, hfit, hdec, huse, hno⟩ := h
  refine ⟨?_, ?_⟩
  · obtain ⟨c, t', e, hc⟩ := ind_head htext
    rw [hfile, e]
    intro h
    cases h
    cases hc
  obtain ⟨x, h1, h2, h3⟩ := C28_in_use_partial r.dict first w0 w1 w2 rows hidx hW hw hfit
  have hind := indirect_text openCfg openCfg_noDiv rfl (x := rest) htext
  refine ⟨x, num, gen, _, rest, hown, ?_, by rw [hfile]; exact hind, ⟨raw, rfl⟩, ?_⟩
  · intro n
    by_cases hn : n < first ∨ first + rows.length ≤ n
    · rw [h3 n hn, hno n hn]; rfl
    · obtain ⟨i, rfl⟩ : ∃ i, n = first + i := ⟨n - first, by omega⟩
      have hi : i < rows.length := by omega
      rw [h2 i hi, huse i hi]
      split <;> rfl
  · intro p hp
    unfold streamSection
    rw [hfile, hind]
    dsimp only
    rw [htype]
    dsimp only
    rw [if_pos (by simp [isText]), hdec]
    dsimp only
    rw [h1]
    dsimp only
    rw [hp]

inductive AllAgree : List XRef → List Revision → Prop
  | nil : AllAgree [] []
  | cons {x : XRef} {r : Revision} {xs : List XRef} {rs : List Revision} : Agrees x r → AllAgree xs rs → AllAgree (x :: xs) (r :: rs)

theorem updates_chain {sec : Nat → Revision → Prop} {sect : Nat → Res Section}
    (h1 : ∀ off r, sec off r → dictGet r.dict b!"Prev" = none → ∃ x, Agrees x r ∧ sect off = .ok (x, r.dict, none))
    (h2 : ∀ off r p, sec off r → dictGet r.dict b!"Prev" = some (.int (p : Nat)) → 0 < p → ∃ x, Agrees x r ∧ sect off = .ok (x, r.dict, some p)) :
    ∀ (off : Nat) (revs : List Revision), Updates sec off revs → ∀ fuel, revs.length ≤ fuel →
      ∃ xs, chain sect fuel off = .ok (xs, (revs.head?.map (·.dict)).getD []) ∧ AllAgree xs revs := by
  intro off revs h
  induction h with
  | oldest off r hr hp =>
    intro fuel hf
    obtain ⟨f, rfl⟩ : ∃ f, fuel = f + 1 := ⟨fuel - 1, by simp at hf; omega⟩
    obtain ⟨x, hx, e⟩ := h1 off r hr hp
    exact ⟨[x], by rw [chain, e]; rfl, .cons hx .nil⟩
  | newer off p r rs hr hp hpos _ ih =>
    intro fuel hf
    obtain ⟨f, rfl⟩ : ∃ f, fuel = f + 1 := ⟨fuel - 1, by simp at hf; omega⟩
    obtain ⟨x, hx, e⟩ := h2 off r p hr hp hpos
    obtain ⟨xs, e2, hxs⟩ := ih f (by simpa using hf)
    exact ⟨x :: xs, by rw [chain, e]; dsimp only; rw [e2]; rfl, .cons hx hxs⟩

theorem openReg_sound {filtered : List (Bytes × Obj) → Bytes → Res Bytes} {file : Bytes} : ∀ (off : Nat) (revs : List Revision),
    Updates (XRefStreamAt (fun d raw data => filtered d raw = .ok data) file) off revs → ∀ (fuel : Nat) (reg : List (Key × Obj)) (n g : Nat) (v : Obj),
    regGet (openReg file fuel off reg) (n, g) = some v → regGet reg (n, g) = some v ∨ ∃ r ∈ revs, r.own = some (n, g, v) := by
  intro off revs h
  have step : ∀ (reg : List (Key × Obj)) (n' g' : Nat) (v' : Obj) (n g : Nat) (v : Obj),
      regGet (match regGet reg (n', g') with | some _ => reg | none => ((n', g'), v') :: reg) (n, g) = some v →
      regGet reg (n, g) = some v ∨ (n', g', v') = (n, g, v) := by
    intro reg n' g' v' n g v e
    split at e
    · exact Or.inl e
    · unfold regGet at e
      split at e
      · rename_i hk
        cases hk
        cases e
        exact Or.inr rfl
      · exact Or.inl e
  induction h with
  | oldest off r hr hp =>
    intro fuel reg n g v e
    cases fuel with
    | zero => exact Or.inl e
    | succ f =>
      obtain ⟨_, x, n', g', v', rest, hown, _, hind, ⟨raw, rfl⟩, _⟩ := stream_reads hr
      rw [openReg, hind] at e
      dsimp only at e
      rw [(prev_none hp).2] at e
      rcases step _ _ _ _ _ _ _ e with h | h
      · exact Or.inl h
      · cases h
        exact Or.inr ⟨r, by simp, hown⟩
  | newer off p r rs hr hp hpos _ ih =>
    intro fuel reg n g v e
    cases fuel with
    | zero => exact Or.inl e
    | succ f =>
      obtain ⟨_, x, n', g', v', rest, hown, _, hind, ⟨raw, rfl⟩, _⟩ := stream_reads hr
      rw [openReg, hind] at e
      dsimp only at e
      rw [(prev_some hp hpos).2] at e
      rcases ih _ _ _ _ _ e with h | ⟨r', hr', h⟩
      · rcases step _ _ _ _ _ _ _ h with h | h
        · exact Or.inl h
        · cases h
          exact Or.inr ⟨r, by simp, hown⟩
      · exact Or.inr ⟨r', by simp [hr'], h⟩

end PdfReader
