/-
  Lemmas for C100: resolving references ends.
-/
import Verif.Spec.Termination
import Verif.Lemmas.Resolve
import Verif.Lemmas.Chain

namespace PdfReader
open Spec

/-- The computation ends, and not with `BruteForceRecursion`. -/
def Calm {α : Type} (f : Nat → Res α × St) (Q : Res α × St → Prop) : Prop :=
  ∃ (bound : Nat) (p : Res α × St), (p.1 ≠ .error .diverges ∧ p.1 ≠ .error .recursion) ∧ Q p ∧ ∀ fuel, bound ≤ fuel → f fuel = p

theorem calm_ret {α : Type} {f : Nat → Res α × St} {Q : Res α × St → Prop} (p : Res α × St) (hp : p.1 ≠ .error .diverges ∧ p.1 ≠ .error .recursion)
    (hq : Q p) (k : Nat) (h : ∀ fuel, f (fuel + k) = p) : Calm f Q :=
  ⟨k, p, hp, hq, fun fuel hf => by obtain ⟨m, rfl⟩ := Nat.exists_eq_add_of_le' hf; exact h m⟩

/-- Run `f`, then go on. -/
theorem calm_bind {α β : Type} {f : Nat → Res α × St} {g : Nat → Res β × St} {Q : Res α × St → Prop} {R : Res β × St → Prop} (h : Calm f Q)
    (k : Nat) (c : ∀ p : Res α × St, (p.1 ≠ .error .diverges ∧ p.1 ≠ .error .recursion) → Q p →
      ∃ j : Nat → Res β × St, Calm j R ∧ ∀ fuel, f fuel = p → g (fuel + k) = j fuel) : Calm g R := by
  obtain ⟨b, p, hp, hq, hf⟩ := h
  obtain ⟨j, ⟨b', p', hp', hq', hf'⟩, hj⟩ := c p hp hq
  refine ⟨max b b' + k, p', hp', hq', fun fuel hfu => ?_⟩
  obtain ⟨m, rfl⟩ := Nat.exists_eq_add_of_le' (Nat.le_trans (Nat.le_add_left k (max b b')) hfu)
  rw [hj m (hf m (by omega))]
  exact hf' m (by omega)

theorem calm_const {α : Type} {Q : Res α × St → Prop} (p : Res α × St) (hp : p.1 ≠ .error .diverges ∧ p.1 ≠ .error .recursion) (hq : Q p) :
    Calm (fun _ => p) Q := ⟨0, p, hp, hq, fun _ _ => rfl⟩

theorem member_calm (data : Bytes) (first : Obj) (off : Nat) : Ordinary (member data first off) := by
  unfold member
  split
  · rename_i e h
    unfold memberPos at h
    constructor <;> intro h2 <;> cases h2 <;> split at h <;> first | (split at h <;> cases h; done) | (cases h; done)
  · split
    · rename_i e h
      constructor
      · intro h2; cases h2; exact parseObject_noDiv fileCfg_noDiv _ h
      · intro h2; cases h2
        rcases dropErr ((parser_good _).1 fileCfg _) h with ((h | h) | h | ⟨f, n, g, h1, h2⟩) | h
        · cases h
        · cases h
        · cases h
        · cases h1
        · exact absurd h.1 (by simp)
    · split <;> exact ⟨by simp, by simp⟩

/-- Values which are no object stream register at once. -/
theorem register_one (env : Env) (num gen : Nat) (v : Obj) (s : St) (h : isObjStm v = false) :
    ∃ s', ∀ fuel, register env (fuel + 1) num gen v s = (.ok (), s') :=
  ⟨_, fun fuel => register_plain env fuel num gen v s h⟩

theorem registerAll_calm (env : Env) (data : Bytes) (first : Obj) : ∀ (ms : List (Nat × Nat)) (s : St),
    (∀ num o m, (num, o) ∈ ms → member data first o = .ok m → isObjStm m = false) →
    Calm (fun fuel => registerAll env fuel data first ms s) (fun _ => True) := by
  intro ms
  induction ms with
  | nil => intro s _; exact calm_ret (.ok (), s) ⟨by simp, by simp⟩ trivial 1 (fun fuel => by rw [registerAll])
  | cons m ms ih =>
    intro s h
    obtain ⟨num, o⟩ := m
    have ho := member_calm data first o
    cases e : member data first o with
    | error er =>
      rw [e] at ho
      exact calm_ret (.error er, s) ⟨fun h => ho.1 (by cases h; rfl), fun h => ho.2 (by cases h; rfl)⟩ trivial 1 (fun fuel => by rw [registerAll, e])
    | ok v =>
      obtain ⟨s1, h1⟩ := register_one env num 0 v s (h num o v List.mem_cons_self e)
      have hr := ih s1 (fun num o m hm => h num o m (List.mem_cons_of_mem _ hm))
      obtain ⟨b, p, hp, _, hf⟩ := hr
      refine ⟨b + 2, p, hp, trivial, fun fuel hfu => ?_⟩
      obtain ⟨m, rfl⟩ := Nat.exists_eq_add_of_le' (Nat.le_trans (Nat.le_add_left 2 b) hfu)
      show registerAll env (m + 1 + 1) data first ((num, o) :: ms) s = p
      rw [registerAll, e]
      dsimp only
      rw [h1 m]
      exact hf (m + 1) (by omega)

theorem objStmDir_calm {filtered : List (Bytes × Obj) → Bytes → Res Bytes} {d : List (Bytes × Obj)} {raw : Bytes} (hf : Ordinary (filtered d raw)) :
    Ordinary (objStmDir filtered d raw) := by
  have ints : ∀ n inp, Ordinary (objStmInts n inp) := by
    intro n
    induction n with
    | zero => intro inp; exact ⟨by simp [objStmInts], by simp [objStmInts]⟩
    | succ n ih =>
      intro inp
      unfold objStmInts
      split
      · rename_i e h; rw [skipSC_err h]; exact ⟨by simp, by simp⟩
      · split
        · rename_i e h
          rcases dropErr (nonNegInt_good _) h with rfl | rfl <;> exact ⟨by simp, by simp⟩
        · rename_i k r1 _
          have := ih r1
          split
          · rename_i e h; rw [h] at this; exact ⟨fun h => this.1 (by cases h; rfl), fun h => this.2 (by cases h; rfl)⟩
          · exact ⟨by simp, by simp⟩
  unfold objStmDir
  split
  · rename_i e h; rw [h] at hf; exact ⟨fun h => hf.1 (by cases h; rfl), fun h => hf.2 (by cases h; rfl)⟩
  · split
    · exact ⟨by simp, by simp⟩
    · split
      · exact ⟨by simp, by simp⟩
      · rename_i n _
        split
        · rename_i e h
          unfold countOf at h
          split at h <;> cases h
          exact ⟨by simp, by simp⟩
        · split
          · rename_i e h
            exact ⟨fun h2 => (ints _ _).1 (by cases h2; exact h), fun h2 => (ints _ _).2 (by cases h2; exact h)⟩
          · exact ⟨by simp, by simp⟩

/-- Registration ends, and the object is registered then. -/
theorem register_calm (env : Env) (hf : ∀ d raw, Ordinary (env.filtered d raw)) (num gen : Nat) (v : Obj) (s : St)
    (hn : ∀ d raw data first ms k o m, v = .stream d raw → objStmDir env.filtered d raw = .ok (data, first, ms) → (k, o) ∈ ms →
      member data first o = .ok m → isObjStm m = false) :
    Calm (fun fuel => register env fuel num gen v s) (fun p => ∃ w, regGet p.2.reg (num, gen) = some w) := by
  have key : Calm (fun fuel => register env fuel num gen v s) (fun _ => True) := by
    cases h : isObjStm v with
    | false =>
      obtain ⟨s', h'⟩ := register_one env num gen v s h
      exact calm_ret _ ⟨by simp, by simp⟩ trivial 1 h'
    | true =>
      cases v with
      | stream d raw =>
        cases hr : regGet s.reg (num, gen) with
        | some w => exact calm_ret (.ok (), s) ⟨by simp, by simp⟩ trivial 1 (fun fuel => by rw [register, hr])
        | none =>
          have ho := objStmDir_calm (hf d raw)
          cases hd : objStmDir env.filtered d raw with
          | error e =>
            rw [hd] at ho
            exact calm_ret (.error e, s.put (num, gen) (.stream d raw)) ⟨fun h => ho.1 (by cases h; rfl), fun h => ho.2 (by cases h; rfl)⟩ trivial 1
              (fun fuel => by rw [register, hr]; dsimp only; rw [if_pos h, hd])
          | ok x =>
            obtain ⟨data, first, ms⟩ := x
            obtain ⟨b, p, hp, _, hfu⟩ := registerAll_calm env data first ms (s.put (num, gen) (.stream d raw))
              (fun k o m hm => hn d raw data first ms k o m rfl hd hm)
            refine ⟨b + 1, p, hp, trivial, fun fuel hfl => ?_⟩
            obtain ⟨m, rfl⟩ := Nat.exists_eq_add_of_le' (Nat.le_trans (Nat.le_add_left 1 b) hfl)
            show register env (m + 1) num gen (.stream d raw) s = p
            rw [register, hr]; dsimp only; rw [if_pos h, hd]
            exact hfu m (by omega)
      | _ => simp [isObjStm] at h
  obtain ⟨b, p, hp, _, hfu⟩ := key
  refine ⟨b, p, hp, ?_, hfu⟩
  replace hfu : ∀ fuel, b ≤ fuel → register env fuel num gen v s = p := hfu
  have := register_known (env := env) (fuel := b) (num := num) (gen := gen) (val := v) (s := s) (Or.inl (by rw [hfu b (Nat.le_refl b)]; exact hp.1))
  rw [hfu b (Nat.le_refl b)] at this
  exact this

/-- Errors of reading an indirect object. -/
def ObjErr (cfg : Cfg) (e : Exc) : Prop := PK cfg e ∨ e = .assertion

theorem objHeader_good (inp : Bytes) : Good PT 1 inp (objHeader inp) := by
  unfold objHeader
  split
  · rename_i e h; exact dropErr (nonNegInt_good _) h
  · rename_i num r h
    have g1 := dropOk (nonNegInt_good _) h
    split
    · rename_i e h; rw [skipSC_err h]; exact Or.inr rfl
    · rename_i r1 h1
      have g2 := skipSC_ok h1
      split
      · rename_i e h; exact dropErr (nonNegInt_good _) h
      · rename_i gen r2 h2
        have g3 := dropOk (nonNegInt_good _) h2
        split
        · rename_i e h; rw [skipSC_err h]; exact Or.inr rfl
        · rename_i r3 h3
          have g4 := skipSC_ok h3
          split
          · rename_i e h; exact dropErr (readN_good _ _) h
          · rename_i t r4 h4
            have g5 := dropOk (readN_good _ _) h4
            split
            · split
              · rename_i e h; rw [skipSC_err h]; exact Or.inr rfl
              · rename_i r5 h5
                have g6 := skipSC_ok h5
                have l2 := g2.length_le; have l4 := g4.length_le; have l6 := g6.length_le
                refine ⟨((((g6.trans g5.1).trans g4).trans g3.1).trans g2).trans g1.1, ?_⟩
                omega
            · exact Or.inl rfl

theorem objTail_good {v : Obj} {r r2 : Bytes} (h : objTail v r = .ok r2) : r2 <:+ r := by
  unfold objTail at h
  split at h
  · cases h
  · rename_i r1 h1
    have g1 := skipSC_ok h1
    split at h
    · cases h
    · rename_i t r3 h3
      have g3 := dropOk (readN_good _ _) h3
      split at h
      · cases h; exact g3.1.trans g1
      · split at h
        · cases h; exact g1
        · cases h

theorem objTail_err {v : Obj} {r : Bytes} {e : Exc} (h : objTail v r = .error e) : PT e := by
  unfold objTail at h
  split at h
  · rename_i e' h1; cases h; rw [skipSC_err h1]; exact Or.inr rfl
  · split at h
    · rename_i e' h1; cases h; exact dropErr (readN_good _ _) h1
    · split at h
      · cases h
      · split at h <;> cases h
        exact Or.inl rfl

theorem indirectObject_good {cfg : Cfg} (hc : cfg.NoDiv) (inp : Bytes) : Good (ObjErr cfg) 1 inp (indirectObject cfg inp) := by
  have hd := indirectObject_noDiv hc inp
  unfold indirectObject at hd ⊢
  split
  · rename_i e h; exact Or.inl (Or.inl (dropErr (objHeader_good _) h))
  · rename_i num gen r h
    have g1 := dropOk (objHeader_good _) h
    rw [h] at hd
    dsimp only at hd
    split
    · rename_i e h2
      rw [h2] at hd
      rcases dropErr ((parser_good _).1 cfg r) h2 with h3 | h3
      · exact Or.inl h3
      · exact absurd (by rw [h3.1]) hd
    · rename_i v r1 h2
      have g2 := dropOk ((parser_good _).1 cfg r) h2
      split
      · rename_i e h3; exact Or.inl (Or.inl (objTail_err h3))
      · rename_i r2 h3
        have g3 := objTail_good h3
        split
        · have l3 := g3.length_le
          exact ⟨(g3.trans g2.1).trans g1.1, by omega⟩
        · exact Or.inr rfl

/-- Only a Length which is not known yet is asked for, and `BruteForceRecursion` is not raised while parsing. -/
theorem ask_err {known : List (Key × Obj)} {inp : Bytes} {e : Exc} (h : indirectObject (askCfg known) inp = .error e) :
    (∃ n g, e = .need n g ∧ regGet known (n, g) = none) ∨ ((∀ n g, e ≠ .need n g) ∧ e ≠ .diverges ∧ e ≠ .recursion) := by
  rcases dropErr (indirectObject_good (askCfg_noDiv known) inp) h with ((rfl | rfl) | rfl | ⟨f, n, g, h1, h2⟩) | rfl
  · right; simp
  · right; simp
  · right; simp
  · left
    cases h1
    dsimp only at h2
    split at h2
    · cases h2
    · rename_i hn; cases h2; exact ⟨n, g, rfl, hn⟩
  · right; simp

theorem filter_less {α : Type} {l : List α} {p q : α → Bool} (hpq : ∀ a, q a = true → p a = true) {a : α} (ha : a ∈ l) (h1 : p a = true)
    (h2 : q a = false) : (l.filter q).length < (l.filter p).length := by
  induction l with
  | nil => cases ha
  | cons b l ih =>
    have le : ∀ l : List α, (l.filter q).length ≤ (l.filter p).length := by
      intro l
      induction l with
      | nil => simp
      | cons c l ih2 =>
        simp only [List.filter_cons]
        cases hq : q c with
        | true => rw [hpq c hq]; simpa using ih2
        | false => cases p c <;> simp <;> omega
    rcases List.mem_cons.1 ha with rfl | ha
    · simp only [List.filter_cons, h1, h2]
      have := le l
      simp
      omega
    · have := ih ha
      simp only [List.filter_cons]
      cases hq : q b with
      | true => rw [hpq b hq]; simpa using this
      | false => cases p b <;> simp <;> omega

/-- What is needed of the Lengths: they are found, and they are finitely many. -/
structure Asks (env : Env) (l : List Key) : Prop where
  mem : ∀ n g, UsedAsLength env.file n g → (n, g) ∈ l
  calm : ∀ n g s, UsedAsLength env.file n g → Calm (fun fuel => locate env fuel n g s) (fun _ => True)

/-- What reading at an offset can yield. -/
def ReadAt (env : Env) (off : Nat) (p : Res ((Nat × Nat × Obj) × Bytes) × St) : Prop :=
  ∀ n g v r, p.1 = .ok ((n, g, v), r) → ∃ known, indirectObject (askCfg known) (env.file.drop off) = .ok ((n, g, v), r)

theorem parseAt_calm {env : Env} {l : List Key} (h : Asks env l) (off : Nat) : ∀ (m : Nat) (known : List (Key × Obj)) (s : St),
    (l.filter (fun k => (regGet known k).isNone)).length ≤ m →
    Calm (fun fuel => parseAt env fuel known off s) (ReadAt env off) := by
  intro m
  induction m with
  | zero =>
    intro known s hm
    cases e : indirectObject (askCfg known) (env.file.drop off) with
    | ok x =>
      refine calm_ret (.ok x, s) ⟨by simp, by simp⟩ ?_ 1 (fun fuel => by rw [parseAt, e])
      intro n g v r hx; cases hx; exact ⟨known, e⟩
    | error er =>
      rcases ask_err e with ⟨n, g, rfl, hn⟩ | ⟨h1, h2, h3⟩
      · have hl := h.mem n g ⟨off, known, e⟩
        have : (n, g) ∈ l.filter (fun k => (regGet known k).isNone) := by simp [hl, hn]
        have := List.length_pos_of_mem this
        omega
      · refine calm_ret (.error er, s) ⟨fun h => h2 (by cases h; rfl), fun h => h3 (by cases h; rfl)⟩ ?_ 1 (fun fuel => ?_)
        · intro n g v r hx; cases hx
        · rw [parseAt, e]
          cases er <;> first | rfl | exact absurd rfl (h1 _ _)
  | succ m ih =>
    intro known s hm
    cases e : indirectObject (askCfg known) (env.file.drop off) with
    | ok x =>
      refine calm_ret (.ok x, s) ⟨by simp, by simp⟩ ?_ 1 (fun fuel => by rw [parseAt, e])
      intro n g v r hx; cases hx; exact ⟨known, e⟩
    | error er =>
      rcases ask_err e with ⟨n, g, rfl, hn⟩ | ⟨h1, h2, h3⟩
      · have hu : UsedAsLength env.file n g := ⟨off, known, e⟩
        refine calm_bind (h.calm n g s hu) 1 (fun p hp _ => ?_)
        obtain ⟨r, s1⟩ := p
        cases r with
        | error er =>
          refine ⟨fun _ => (.error er, s1), calm_const _ ⟨fun h => hp.1 (by cases h; rfl), fun h => hp.2 (by cases h; rfl)⟩ ?_, fun fuel hf => ?_⟩
          · intro n g v r hx; cases hx
          · rw [parseAt, e]; dsimp only; rw [hf]
        | ok v =>
          refine ⟨fun fuel => parseAt env fuel (((n, g), v) :: known) off s1, ih _ _ ?_, fun fuel hf => ?_⟩
          · have : (l.filter (fun k => (regGet (((n, g), v) :: known) k).isNone)).length < (l.filter (fun k => (regGet known k).isNone)).length := by
              refine filter_less ?_ (h.mem n g hu) ?_ ?_
              · intro k hk
                rw [regGet] at hk
                split at hk
                · simp at hk
                · exact hk
              · simp [hn]
              · simp [regGet]
            omega
          · rw [parseAt, e]; dsimp only; rw [hf]
      · refine calm_ret (.error er, s) ⟨fun h => h2 (by cases h; rfl), fun h => h3 (by cases h; rfl)⟩ ?_ 1 (fun fuel => ?_)
        · intro n g v r hx; cases hx
        · rw [parseAt, e]
          cases er <;> first | rfl | exact absurd rfl (h1 _ _)

/-- The position after a step: further, within the file. -/
def Moves (env : Env) (off : Nat) (p : Res Nat × St) : Prop := ∀ q, p.1 = .ok q → off < q ∧ q ≤ env.file.length

/-- The assumptions of C100 about an environment. -/
structure Tame (env : Env) : Prop where
  filters : ∀ d raw, Ordinary (env.filtered d raw)
  decrypts : ∀ n g v, Ordinary (env.dec n g v)
  packs : NoNestedPacks env

theorem objectAt_calm {env : Env} (ht : Tame env) {l : List Key} (h : Asks env l) (off : Nat) (s : St) :
    Calm (fun fuel => objectAt env fuel off s) (Moves env off) := by
  refine calm_bind (parseAt_calm h off _ [] s (Nat.le_refl _)) 1 (fun p hp hq => ?_)
  obtain ⟨x, s1⟩ := p
  cases x with
  | error er =>
    refine ⟨fun _ => (.error er, s1), calm_const _ ⟨fun h => hp.1 (by cases h; rfl), fun h => hp.2 (by cases h; rfl)⟩ ?_, fun fuel hf => ?_⟩
    · intro q hx; cases hx
    · rw [objectAt, hf]
  | ok x =>
    obtain ⟨⟨n, g, v⟩, r⟩ := x
    obtain ⟨known, hk⟩ := hq n g v r rfl
    have hg := dropOk (indirectObject_good (askCfg_noDiv known) _) hk
    have hd := ht.decrypts n g v
    cases e : env.dec n g v with
    | error er =>
      rw [e] at hd
      refine ⟨fun _ => (.error er, s1), calm_const _ ⟨fun h => hd.1 (by cases h; rfl), fun h => hd.2 (by cases h; rfl)⟩ ?_, fun fuel hf => ?_⟩
      · intro q hx; cases hx
      · rw [objectAt, hf]; dsimp only; rw [e]
    | ok w =>
      refine ⟨fun fuel => match register env fuel n g w s1 with
        | (.error e, s2) => (.error e, s2)
        | (.ok (), s2) => (.ok (env.file.length - r.length), s2), ?_, fun fuel hf => ?_⟩
      · obtain ⟨b, p, hp, _, hfu⟩ := register_calm env ht.filters n g w s1
          (fun d raw data first ms k o m h1 h2 h3 h4 => ht.packs off known n g v w r d raw data first ms k o m hk e h1 h2 h3 h4)
        refine ⟨b, (match p with | (.error e, s2) => (.error e, s2) | (.ok (), s2) => (.ok (env.file.length - r.length), s2)), ?_, ?_, ?_⟩
        · obtain ⟨x, s2⟩ := p
          cases x with
          | error er => exact ⟨fun h => hp.1 (by cases h; rfl), fun h => hp.2 (by cases h; rfl)⟩
          | ok x => exact ⟨by simp, by simp⟩
        · obtain ⟨x, s2⟩ := p
          cases x with
          | error er => intro q hx; cases hx
          | ok x =>
            intro q hx
            cases hx
            have := hg.2
            simp only [List.length_drop] at this
            omega
        · intro fuel hfl
          have hfu' : ∀ fuel, b ≤ fuel → register env fuel n g w s1 = p := hfu
          dsimp only
          rw [hfu' fuel hfl]
          obtain ⟨x, s2⟩ := p
          cases x <;> rfl
      · rw [objectAt, hf]; dsimp only; rw [e]; dsimp only
        generalize register env fuel n g w s1 = p
        obtain ⟨x, s2⟩ := p
        cases x <;> rfl

/-- A Length which is well listed is found. -/
theorem length_calm {env : Env} (ht : Tame env) {n g : Nat} (hw : WellListed env n g) (s : St) :
    Calm (fun fuel => locate env fuel n g s) (fun _ => True) := by
  obtain ⟨pre, x, post, e, hx, hpre, he, hgen, v, w, r, hv, hd⟩ := hw
  have hpre' : ∀ y ∈ pre, ¬ Lists y n g := fun y hy ⟨e', h1, h2⟩ => hpre y hy e' h1 h2
  obtain ⟨b, p, hp, ⟨w', hw'⟩, hfu⟩ := register_calm env ht.filters n g w s
    (fun d raw data first ms k o m h1 h2 h3 h4 => ht.packs e.offset [] n g v w r d raw data first ms k o m hv hd h1 h2 h3 h4)
  replace hfu : ∀ fuel, b ≤ fuel → register env fuel n g w s = p := hfu
  -- what byXref yields
  have hby : ∃ q : Res (Option Obj) × St, (q.1 ≠ .error .diverges ∧ q.1 ≠ .error .recursion) ∧
      (∀ o, q.1 = .ok o → ∃ u, regGet q.2.reg (n, g) = some u) ∧
      ∀ fuel, byXref env (fuel + b + 3 + pre.length) n g env.xrefs s = q := by
    have step : ∀ fuel, byXref env (fuel + b + 3 + pre.length) n g env.xrefs s = byXref env (fuel + b + 3) n g (x :: post) s := by
      intro fuel; rw [hx]; exact byXref_skip env n g s (x :: post) pre _ hpre'
    obtain ⟨y, s1⟩ := p
    have obj : ∀ fuel, objectAt env (fuel + b + 2) e.offset s =
        (match y with | .error er => (.error er, s1) | .ok () => (.ok (env.file.length - r.length), s1)) := by
      intro fuel
      rw [objectAt, parseAt, hv]; dsimp only; rw [hd]; dsimp only; rw [hfu _ (by omega)]
      cases y <;> rfl
    cases y with
    | ok y =>
      refine ⟨(.ok (some w'), s1), ⟨by simp, by simp⟩, fun o _ => ⟨w', hw'⟩, fun fuel => ?_⟩
      rw [step, byXref, he]; dsimp only; rw [if_pos hgen, obj]; dsimp only; dsimp only at hw'; rw [hw']
    | error er =>
      by_cases her : er = .parser
      · subst her
        refine ⟨(.ok (some w'), s1), ⟨by simp, by simp⟩, fun o _ => ⟨w', hw'⟩, fun fuel => ?_⟩
        rw [step, byXref, he]; dsimp only; rw [if_pos hgen, obj]; dsimp only; dsimp only at hw'; rw [hw']
      · refine ⟨(.error er, s1), ⟨fun h => hp.1 (by cases h; rfl), fun h => hp.2 (by cases h; rfl)⟩, fun o h => (by cases h), fun fuel => ?_⟩
        rw [step, byXref, he]; dsimp only; rw [if_pos hgen, obj]
        cases er <;> first | rfl | exact absurd rfl her
  obtain ⟨q, hq, hk, hqf⟩ := hby
  have rest : ∃ z : Res Obj × St, (z.1 ≠ .error .diverges ∧ z.1 ≠ .error .recursion) ∧ ∀ fuel,
      (match byXref env (fuel + b + 3 + pre.length) n g env.xrefs s with
        | (.error e, s1) => (.error e, s1)
        | (.ok _, s1) => bruteForce env (fuel + b + 3 + pre.length) n g s1) = z := by
    obtain ⟨y, s1⟩ := q
    cases y with
    | error er => exact ⟨(.error er, s1), ⟨fun h => hq.1 (by cases h; rfl), fun h => hq.2 (by cases h; rfl)⟩, fun fuel => by rw [hqf]⟩
    | ok o =>
      obtain ⟨u, hu⟩ := hk o rfl
      refine ⟨(.ok u, s1), ⟨by simp, by simp⟩, fun fuel => ?_⟩
      rw [hqf]; dsimp only
      rw [show fuel + b + 3 + pre.length = (fuel + b + 2 + pre.length) + 1 by omega, bruteForce]
      dsimp only at hu
      rw [hu]
  obtain ⟨z, hz, hzf⟩ := rest
  cases hr : regGet s.reg (n, g) with
  | none =>
    refine calm_ret z hz trivial (b + 3 + pre.length + 1) (fun fuel => ?_)
    show locate env (fuel + (b + 3 + pre.length) + 1) n g s = z
    rw [locate, hr, ← hzf fuel, show fuel + (b + 3 + pre.length) = fuel + b + 3 + pre.length by omega]
    generalize byXref env (fuel + b + 3 + pre.length) n g env.xrefs s = q
    obtain ⟨y, s1⟩ := q
    cases y <;> rfl
  | some o =>
    cases hto : truthy o with
    | true => exact calm_ret (.ok o, s) ⟨by simp, by simp⟩ trivial 1 (fun fuel => by rw [locate, hr]; dsimp only; rw [hto]; rfl)
    | false =>
      refine calm_ret z hz trivial (b + 3 + pre.length + 1) (fun fuel => ?_)
      show locate env (fuel + (b + 3 + pre.length) + 1) n g s = z
      rw [locate, hr, ← hzf fuel, show fuel + (b + 3 + pre.length) = fuel + b + 3 + pre.length by omega]
      dsimp only
      rw [hto]
      generalize byXref env (fuel + b + 3 + pre.length) n g env.xrefs s = q
      obtain ⟨y, s1⟩ := q
      cases y <;> rfl

/-- All numbers and generations which the sections list in use. -/
def listedKeys (xs : List XRef) : List Key := (xs.map (fun x => x.inUse.map (fun p => (p.1, p.2.gen)))).flatten

theorem natGet_mem {α : Type} {es : List (Nat × α)} {k : Nat} {v : α} (h : natGet es k = some v) : (k, v) ∈ es := by
  induction es with
  | nil => cases h
  | cons p es ih =>
    obtain ⟨k', v'⟩ := p
    rw [natGet] at h
    split at h
    · rename_i e; cases h; rw [e]; exact List.mem_cons_self
    · exact List.mem_cons_of_mem _ (ih h)

theorem asks_of {env : Env} (ht : Tame env) (h : ∀ n g, UsedAsLength env.file n g → WellListed env n g) : Asks env (listedKeys env.xrefs) where
  mem n g hu := by
    obtain ⟨pre, x, post, e, hx, _, he, hgen, _⟩ := h n g hu
    unfold listedKeys
    rw [List.mem_flatten]
    refine ⟨_, List.mem_map.2 ⟨x, by rw [hx]; simp, rfl⟩, List.mem_map.2 ⟨(n, e), natGet_mem he, by rw [← hgen]⟩⟩
  calm n g s hu := length_calm ht (h n g hu) s

theorem startxrefP_good {inp : Bytes} : Good PT 1 inp (startxrefP inp) := by
  unfold startxrefP
  split
  · rename_i e h; exact dropErr (readN_good _ _) h
  · rename_i t r h
    have g1 := dropOk (readN_good _ _) h
    split
    · split
      · rename_i e h; rw [skipSC_err h]; exact Or.inr rfl
      · rename_i r1 h1
        have g2 := skipSC_ok h1
        have l2 := g2.length_le
        exact (nonNegInt_good r1).mono (fun e h => h) (g2.trans g1.1) (by have := g1.2; omega)
    · exact Or.inl rfl

theorem bodyElement_calm {env : Env} (ht : Tame env) {l : List Key} (h : Asks env l) (off : Nat) (s : St) :
    Calm (fun fuel => bodyElement env fuel off s) (Moves env off) := by
  cases hd : env.file.drop off with
  | nil => exact calm_ret (.error .parser, s) ⟨by simp, by simp⟩ (fun q h => by cases h) 1 (fun fuel => by rw [bodyElement, hd])
  | cons c r =>
    cases hc : isDigit c with
    | true =>
      obtain ⟨b, p, hp, hq, hf⟩ := objectAt_calm ht h off s
      refine ⟨b + 1, p, hp, hq, fun fuel hfl => ?_⟩
      obtain ⟨m, rfl⟩ := Nat.exists_eq_add_of_le' (Nat.le_trans (Nat.le_add_left 1 b) hfl)
      show bodyElement env (m + 1) off s = p
      rw [bodyElement, hd]; dsimp only; rw [hc, if_pos rfl]
      exact hf m (by omega)
    | false =>
      by_cases h1 : c = 115
      · cases e : startxrefP (c :: r) with
        | error er =>
          have := dropErr startxrefP_good e
          refine calm_ret (.error er, s) ?_ (fun q h => by cases h) 1 (fun fuel => ?_)
          · rcases this with rfl | rfl <;> simp
          · rw [bodyElement, hd]; dsimp only; rw [hc, if_neg (by simp), if_pos h1, e]
        | ok x =>
          obtain ⟨k, r1⟩ := x
          have hg := dropOk startxrefP_good e
          refine calm_ret (.ok (env.file.length - r1.length), s) ⟨by simp, by simp⟩ (fun q hq => ?_) 1 (fun fuel => ?_)
          · cases hq
            have h2 := hg.2
            have h3 : (env.file.drop off).length = (c :: r).length := by rw [hd]
            rw [List.length_drop] at h3
            omega
          · rw [bodyElement, hd]; dsimp only; rw [hc, if_neg (by simp), if_pos h1, e]
      · by_cases h2 : c = 116
        · exact calm_ret (.error .typeError, s) ⟨by simp, by simp⟩ (fun q h => by cases h) 1
            (fun fuel => by rw [bodyElement, hd]; dsimp only; rw [hc, if_neg (by simp), if_neg h1, if_pos h2])
        · exact calm_ret (.error .parser, s) ⟨by simp, by simp⟩ (fun q h => by cases h) 1
            (fun fuel => by rw [bodyElement, hd]; dsimp only; rw [hc, if_neg (by simp), if_neg h1, if_neg h2])

theorem bruteLoop_calm {env : Env} (ht : Tame env) {l : List Key} (h : Asks env l) (t last : Nat) (s : St) :
    Calm (fun fuel => bruteLoop env fuel [t] none last s) (Moves env t) := by
  cases e : skipSC false (env.file.drop t) with
  | error er =>
    have := skipSC_err e
    exact calm_ret (.error er, s) (by rw [this]; simp) (fun q h => by cases h) 1 (fun fuel => by rw [bruteLoop, e])
  | ok r =>
    have hsuf := (skipSC_ok e).length_le
    rw [List.length_drop] at hsuf
    obtain ⟨b, p, hp, hq, hf⟩ := bodyElement_calm ht h (env.file.length - r.length) s
    replace hf : ∀ fuel, b ≤ fuel → bodyElement env fuel (env.file.length - r.length) s = p := hf
    refine ⟨b + 2, p, hp, ?_, fun fuel hfl => ?_⟩
    · intro q hpq
      have := hq q hpq
      by_cases ht : t ≤ env.file.length
      · omega
      · omega
    · obtain ⟨m, rfl⟩ := Nat.exists_eq_add_of_le' (Nat.le_trans (Nat.le_add_left 2 b) hfl)
      show bruteLoop env (m + 1 + 1) [t] none last s = p
      rw [bruteLoop, e]
      dsimp only
      rw [hf (m + 1) (by omega)]
      obtain ⟨y, s1⟩ := p
      cases y with
      | error er => cases er <;> first | rfl | exact absurd rfl hp.2
      | ok q => dsimp only; rw [bruteLoop]; rfl

theorem bruteForce_ends {env : Env} (ht : Tame env) {l : List Key} (h : Asks env l) (n g : Nat) : ∀ (m : Nat) (s : St), env.file.length - s.bf < m →
    Ends (fun fuel => bruteForce env fuel n g s) := by
  intro m
  induction m with
  | zero => intro s hm; omega
  | succ m ih =>
    intro s hm
    cases hr : regGet s.reg (n, g) with
    | some v => exact ⟨1, (.ok v, s), by simp, fun fuel hf => by
        obtain ⟨k, rfl⟩ := Nat.exists_eq_add_of_le' hf
        show bruteForce env (k + 1) n g s = _
        rw [bruteForce, hr]⟩
    | none =>
      by_cases hs : (n, g) ∈ s.stack
      · exact ⟨1, (.error .recursion, s), by simp, fun fuel hf => by
          obtain ⟨k, rfl⟩ := Nat.exists_eq_add_of_le' hf
          show bruteForce env (k + 1) n g s = _
          rw [bruteForce, hr]; dsimp only; rw [if_pos hs]⟩
      · obtain ⟨b, p, hp, hq, hf⟩ := bruteLoop_calm ht h s.bf s.bf { s with stack := (n, g) :: s.stack }
        replace hf : ∀ fuel, b ≤ fuel → bruteLoop env fuel [s.bf] none s.bf { s with stack := (n, g) :: s.stack } = p := hf
        obtain ⟨y, s1⟩ := p
        cases y with
        | ok q =>
          have hm' := hq q rfl
          obtain ⟨b', p', hp', hf'⟩ := ih { s1 with bf := q, stack := s.stack } (by dsimp only; omega)
          replace hf' : ∀ fuel, b' ≤ fuel → bruteForce env fuel n g { s1 with bf := q, stack := s.stack } = p' := hf'
          refine ⟨max b b' + 1, p', hp', fun fuel hfl => ?_⟩
          obtain ⟨k, rfl⟩ := Nat.exists_eq_add_of_le' (Nat.le_trans (Nat.le_add_left 1 (max b b')) hfl)
          show bruteForce env (k + 1) n g s = p'
          rw [bruteForce, hr]; dsimp only; rw [if_neg hs, hf k (by omega)]
          exact hf' k (by omega)
        | error er =>
          have hnd : er ≠ .diverges := fun h => hp.1 (by rw [h])
          by_cases her : er = .parser
          · subst her
            cases h2 : regGet s1.reg (n, g) with
            | some v =>
              refine ⟨b + 1, (.ok v, { s1 with stack := s.stack }), by simp, fun fuel hfl => ?_⟩
              obtain ⟨k, rfl⟩ := Nat.exists_eq_add_of_le' (Nat.le_trans (Nat.le_add_left 1 b) hfl)
              show bruteForce env (k + 1) n g s = _
              rw [bruteForce, hr]; dsimp only; rw [if_neg hs, hf k (by omega)]; dsimp only; rw [h2]
            | none =>
              refine ⟨b + 1, (.ok .null, { s1.put (n, g) .null with stack := s.stack }), by simp, fun fuel hfl => ?_⟩
              obtain ⟨k, rfl⟩ := Nat.exists_eq_add_of_le' (Nat.le_trans (Nat.le_add_left 1 b) hfl)
              show bruteForce env (k + 1) n g s = _
              rw [bruteForce, hr]; dsimp only; rw [if_neg hs, hf k (by omega)]; dsimp only; rw [h2]
          · refine ⟨b + 1, (.error er, { s1 with stack := s.stack }), fun h => hnd (by cases h; rfl), fun fuel hfl => ?_⟩
            obtain ⟨k, rfl⟩ := Nat.exists_eq_add_of_le' (Nat.le_trans (Nat.le_add_left 1 b) hfl)
            show bruteForce env (k + 1) n g s = _
            rw [bruteForce, hr]; dsimp only; rw [if_neg hs, hf k (by omega)]
            cases er <;> first | rfl | exact absurd rfl her

theorem byXref_calm {env : Env} (ht : Tame env) {l : List Key} (h : Asks env l) (n g : Nat) : ∀ (xs : List XRef) (s : St),
    Calm (fun fuel => byXref env fuel n g xs s) (fun _ => True) := by
  intro xs
  induction xs with
  | nil => intro s; exact calm_ret (.ok (regGet s.reg (n, g)), s) ⟨by simp, by simp⟩ trivial 1 (fun fuel => by rw [byXref])
  | cons x xs ih =>
    intro s
    have skip : (∀ fuel, byXref env (fuel + 1) n g (x :: xs) s = byXref env fuel n g xs s) → Calm (fun fuel => byXref env fuel n g (x :: xs) s) (fun _ => True) := by
      intro hstep
      obtain ⟨b, p, hp, _, hf⟩ := ih s
      refine ⟨b + 1, p, hp, trivial, fun fuel hfl => ?_⟩
      obtain ⟨k, rfl⟩ := Nat.exists_eq_add_of_le' (Nat.le_trans (Nat.le_add_left 1 b) hfl)
      exact (hstep k).trans (hf k (by omega))
    cases he : natGet x.inUse n with
    | none => exact skip (fun fuel => by rw [byXref, he])
    | some e =>
      by_cases hg : e.gen = g
      · refine calm_bind (objectAt_calm ht h e.offset s) 1 (fun p hp _ => ?_)
        obtain ⟨y, s1⟩ := p
        have found : ∀ (z : Res Nat), (z = .error .parser ∨ ∃ q, z = .ok q) → ∃ j : Nat → Res (Option Obj) × St, Calm j (fun _ => True) ∧
            ∀ fuel, objectAt env fuel e.offset s = (z, s1) → byXref env (fuel + 1) n g (x :: xs) s = j fuel := by
          intro z hz
          cases hr : regGet s1.reg (n, g) with
          | some v =>
            refine ⟨fun _ => (.ok (some v), s1), calm_const _ ⟨by simp, by simp⟩ trivial, fun fuel hf => ?_⟩
            rw [byXref, he]; dsimp only; rw [if_pos hg, hf]
            rcases hz with rfl | ⟨q, rfl⟩ <;> dsimp only <;> rw [hr]
          | none =>
            refine ⟨fun fuel => byXref env fuel n g xs s1, ih s1, fun fuel hf => ?_⟩
            rw [byXref, he]; dsimp only; rw [if_pos hg, hf]
            rcases hz with rfl | ⟨q, rfl⟩ <;> dsimp only <;> rw [hr]
        cases y with
        | ok q => exact found _ (Or.inr ⟨q, rfl⟩)
        | error er =>
          by_cases her : er = .parser
          · exact found _ (Or.inl (by rw [her]))
          · refine ⟨fun _ => (.error er, s1), calm_const _ ⟨fun h => hp.1 (by cases h; rfl), fun h => hp.2 (by cases h; rfl)⟩ trivial, fun fuel hf => ?_⟩
            rw [byXref, he]; dsimp only; rw [if_pos hg, hf]
            cases er <;> first | rfl | exact absurd rfl her
      · exact skip (fun fuel => by rw [byXref, he]; dsimp only; rw [if_neg hg])

theorem locate_ends {env : Env} (ht : Tame env) {l : List Key} (h : Asks env l) (n g : Nat) (s : St) : Ends (fun fuel => locate env fuel n g s) := by
  have main : ∃ (b : Nat) (p : Res Obj × St), p.1 ≠ .error .diverges ∧ ∀ fuel, b ≤ fuel → (match byXref env fuel n g env.xrefs s with
        | (.error e, s1) => (.error e, s1)
        | (.ok _, s1) => bruteForce env fuel n g s1) = p := by
    obtain ⟨b, ⟨y, s1⟩, hp, _, hf⟩ := byXref_calm ht h n g env.xrefs s
    replace hf : ∀ fuel, b ≤ fuel → byXref env fuel n g env.xrefs s = (y, s1) := hf
    cases y with
    | error er => exact ⟨b, (.error er, s1), fun h => hp.1 (by cases h; rfl), fun fuel hfl => by rw [hf fuel hfl]⟩
    | ok o =>
      obtain ⟨b', p', hp', hf'⟩ := bruteForce_ends ht h n g _ s1 (Nat.lt_succ_self _)
      exact ⟨max b b', p', hp', fun fuel hfl => by rw [hf fuel (by omega)]; exact hf' fuel (by omega)⟩
  obtain ⟨b, p, hp, hf⟩ := main
  have slow : (∀ fuel, locate env (fuel + 1) n g s = (match byXref env fuel n g env.xrefs s with
        | (.error e, s1) => (.error e, s1)
        | (.ok _, s1) => bruteForce env fuel n g s1)) → Ends (fun fuel => locate env fuel n g s) := by
    intro hs
    refine ⟨b + 1, p, hp, fun fuel hfl => ?_⟩
    obtain ⟨k, rfl⟩ := Nat.exists_eq_add_of_le' (Nat.le_trans (Nat.le_add_left 1 b) hfl)
    exact (hs k).trans (hf k (by omega))
  cases hr : regGet s.reg (n, g) with
  | none =>
    refine slow (fun fuel => ?_)
    rw [locate, hr]
    generalize byXref env fuel n g env.xrefs s = q
    obtain ⟨y, s1⟩ := q
    cases y <;> rfl
  | some o =>
    cases hto : truthy o with
    | true => exact ⟨1, (.ok o, s), by simp, fun fuel hfl => by
        obtain ⟨k, rfl⟩ := Nat.exists_eq_add_of_le' hfl
        show locate env (k + 1) n g s = _
        rw [locate, hr]; dsimp only; rw [hto]; rfl⟩
    | false =>
      refine slow (fun fuel => ?_)
      rw [locate, hr]; dsimp only; rw [hto]
      generalize byXref env fuel n g env.xrefs s = q
      obtain ⟨y, s1⟩ := q
      cases y <;> rfl

end PdfReader
