/-
  Scanning a body in which the Length of a stream stands right behind it.
-/
import Verif.Lemmas.Whole
import Verif.Lemmas.Stream
import Verif.Spec.Behind

namespace PdfReader
open Spec

theorem lenText_head {ln lg len n g : Nat} {o : Obj} {t : Bytes} (h : LenText ln lg len n g o t) : ∃ c t', t = c :: t' ∧ isDigit c = true := by
  cases h with
  | mk ns gs s₁ s₂ s₃ s₄ raw u s nl data w hn =>
    obtain ⟨c, t', rfl, hc⟩ := digits_head hn
    exact ⟨c, _, rfl, hc⟩

theorem lenText_stream {ln lg len n g : Nat} {o : Obj} {t : Bytes} (h : LenText ln lg len n g o t) : ∃ d raw, o = .stream d raw := by
  cases h with
  | mk ns gs s₁ s₂ s₃ s₄ raw u s nl data w hn => exact ⟨_, _, rfl⟩

/-- Reading the header of an element which begins with a digit. -/
theorem bodyElement_digit (env : Env) (fuel off : Nat) (s : St) (t x : Bytes) (hd : env.file.drop off = t ++ x)
    (ht : ∃ c t', t = c :: t' ∧ isDigit c = true) : bodyElement env (fuel + 1) off s = objectAt env fuel off s := by
  obtain ⟨c, t', rfl, hc⟩ := ht
  rw [bodyElement, hd, List.cons_append]
  dsimp only
  rw [if_pos hc]

/-- A stream with an indirect Length, once the Length is located. -/
theorem objectAt_len (env : Env) (off ln lg len n g : Nat) (o : Obj) (t x : Bytes) (s s1 : St) (ht : LenText ln lg len n g o t)
    (hd : env.file.drop off = t ++ x) (hdec : env.dec n g o = .ok o) (hw : isObjStm o = false) (fuel : Nat)
    (hl : locate env (fuel + 1) ln lg s = (.ok (.int (len : Nat)), s1)) :
    objectAt env (fuel + 3) off s = (.ok (env.file.length - x.length), s1.note (n, g) o) := by
  rw [objectAt, parseAt, hd, (lenText_parse ht x).1]
  dsimp only
  rw [hl]
  dsimp only
  rw [parseAt, hd, (lenText_parse ht x).2 _ (by simp [regGet])]
  dsimp only
  rw [hdec]
  dsimp only
  rw [register_plain _ _ _ _ _ _ hw]

/-- … and if locating it fails. -/
theorem objectAt_len_err (env : Env) (off ln lg len n g : Nat) (o : Obj) (t x : Bytes) (s s1 : St) (ht : LenText ln lg len n g o t)
    (hd : env.file.drop off = t ++ x) (fuel : Nat) (e : Exc)
    (hl : locate env fuel ln lg s = (.error e, s1)) :
    objectAt env (fuel + 2) off s = (.error e, s1) := by
  rw [objectAt, parseAt, hd, (lenText_parse ht x).1]
  dsimp only
  rw [hl]

theorem locate_unlisted (env : Env) (n g : Nat) (s : St) (hu : ∀ y ∈ env.xrefs, ¬ Lists y n g)
    (hr : ∀ v, regGet s.reg (n, g) = some v → truthy v = false) (fuel : Nat) (hf : env.xrefs.length + 1 ≤ fuel) :
    locate env (fuel + 1) n g s = bruteForce env fuel n g s := by
  obtain ⟨f, rfl⟩ : ∃ f, fuel = f + 1 + env.xrefs.length := ⟨fuel - 1 - env.xrefs.length, by omega⟩
  rw [locate, byXref_unlisted env n g s env.xrefs f hu]
  cases h : regGet s.reg (n, g) with
  | none => rfl
  | some v => simp only [hr v h]; rfl

theorem bruteForce_known (env : Env) (n g : Nat) (s : St) (v : Obj) (hr : regGet s.reg (n, g) = some v) (fuel : Nat) :
    bruteForce env (fuel + 1) n g s = (.ok v, s) := by
  rw [bruteForce, hr]

/-- The sections do not list it, or one is the first to list it. -/
theorem first_listed (n g : Nat) : ∀ xs : List XRef, (∀ y ∈ xs, ¬ Lists y n g) ∨
    ∃ pre x post, xs = pre ++ x :: post ∧ (∀ y ∈ pre, ¬ Lists y n g) ∧ Lists x n g := by
  intro xs
  induction xs with
  | nil => exact Or.inl (by simp)
  | cons y xs ih =>
    by_cases h : Lists y n g
    · exact Or.inr ⟨[], y, xs, rfl, by simp, h⟩
    · rcases ih with ih | ⟨pre, x, post, rfl, h1, h2⟩
      · exact Or.inl (List.forall_mem_cons.mpr ⟨h, ih⟩)
      · exact Or.inr ⟨y :: pre, x, post, rfl, List.forall_mem_cons.mpr ⟨h, h1⟩, h2⟩

theorem byXref_found (env : Env) (n g : Nat) (pre : List XRef) (x : XRef) (post : List XRef) (e : XEntry) (s s1 : St) (p : Nat) (v : Obj)
    (hpre : ∀ y ∈ pre, ¬ Lists y n g) (he : natGet x.inUse n = some e) (hg : e.gen = g) (fuel : Nat)
    (ho : objectAt env fuel e.offset s = (.ok p, s1)) (hv : regGet s1.reg (n, g) = some v) :
    byXref env (fuel + 1 + pre.length) n g (pre ++ x :: post) s = (.ok (some v), s1) := by
  rw [byXref_skip env n g s _ pre (fuel + 1) hpre, byXref, he]
  dsimp only
  rw [if_pos hg, ho]
  dsimp only
  rw [hv]

/-- Resolution through a section, then the registry. -/
theorem locate_found_at (env : Env) (n g : Nat) (pre : List XRef) (x : XRef) (post : List XRef) (e : XEntry) (s s1 : St) (p : Nat) (v : Obj)
    (hx : env.xrefs = pre ++ x :: post)
    (hr : ∀ v, regGet s.reg (n, g) = some v → truthy v = false)
    (hpre : ∀ y ∈ pre, ¬ Lists y n g) (he : natGet x.inUse n = some e) (hg : e.gen = g) (fuel : Nat)
    (ho : objectAt env fuel e.offset s = (.ok p, s1)) (hv : regGet s1.reg (n, g) = some v) :
    locate env (fuel + 2 + pre.length) n g s = (.ok v, s1) := by
  have h := byXref_found env n g pre x post e s s1 p v hpre he hg fuel ho hv
  rw [show fuel + 2 + pre.length = (fuel + 1 + pre.length) + 1 by omega, locate, hx, h]
  have hb := bruteForce_known env n g s1 v hv (fuel + pre.length)
  rw [show fuel + pre.length + 1 = fuel + 1 + pre.length by omega] at hb
  cases hreg : regGet s.reg (n, g) with
  | none => exact hb
  | some w => simp only [hr w hreg]; exact hb

/-- After the stream the scan continues with the object behind its `endobj`. -/
theorem nextObject_behind (file p t s' rest : Bytes) (q : Nat) (hf : file = p ++ (t ++ (s' ++ rest))) (he : EndsOnce t) (hs : Sep s')
    (hr : NotStart SepChar rest) (h1 : p.length ≤ q) (h2 : q + 6 ≤ p.length + t.length) :
    nextObject file q = .ok (p ++ (t ++ s')).length := by
  obtain ⟨⟨u, rfl⟩, honce⟩ := he
  have hlen : (u ++ b!"endobj").length = u.length + 6 := by simp
  have hq : q - p.length ≤ u.length := by omega
  have hdrop : file.drop q = u.drop (q - p.length) ++ (b!"endobj" ++ (s' ++ rest)) := by
    rw [hf, List.drop_append]
    rw [List.drop_eq_nil_of_le h1, List.nil_append, List.append_assoc, List.drop_append_of_le_length hq]
  unfold nextObject
  rw [hdrop, splitOn1_first]
  · dsimp only
    rw [skipSC_sep hs hr]
    dsimp only
    rw [hf]
    simp
    omega
  · intro a b e
    by_cases hlt : a.length < (u.drop (q - p.length)).length
    · exfalso
      have hocc : OccursAt b!"endobj" (u ++ b!"endobj") ((q - p.length) + a.length) := by
        have h3 : (u.drop (q - p.length) ++ b!"endobj").take (a.length + 6) = a ++ b!"endobj" := by
          have := congrArg (List.take (a.length + 6)) e
          rw [← List.append_assoc, List.take_append_of_le_length (by simp at hlt ⊢; omega)] at this
          rw [this, ← List.append_assoc, List.take_append_of_le_length (by simp)]
          exact List.take_of_length_le (by simp)
        refine ⟨u.take (q - p.length) ++ a, (u.drop (q - p.length) ++ b!"endobj").drop (a.length + 6), ?_, by simp; omega⟩
        have h4 := List.take_append_drop (a.length + 6) (u.drop (q - p.length) ++ b!"endobj")
        rw [h3] at h4
        rw [List.append_assoc, ← List.append_assoc a, h4, ← List.append_assoc, List.take_append_drop]
      have := honce _ hocc
      rw [hlen] at this
      simp at hlt
      omega
    · omega

/-- The scan of an object whose Length is being looked for. -/
theorem bruteLoop_behind (env : Env) (hdec : ∀ n g v, env.dec n g v = .ok v) (hseek : SeeksWithin env.file env.seek) (b n g : Nat) (o : Obj) (ln lg len : Nat)
    (sep t s' t' x p : Bytes) (s : St) (hf : env.file = p ++ (sep ++ (t ++ (s' ++ (t' ++ x)))))
    (hb : b = p.length) (hs : Sep sep) (ht : LenText ln lg len n g o t) (hend : EndsOnce t) (hs' : Sep s') (ht' : IndText ln lg (.int (len : Nat)) t')
    (hw : isObjStm o = false) (hst : (ln, lg) ∈ s.stack) (hu : ∀ y ∈ env.xrefs, ¬ Lists y ln lg) (hr : regGet s.reg (ln, lg) = none)
    (fuel : Nat) (hfuel : env.xrefs.length + 10 ≤ fuel) :
    bruteLoop env fuel [b] none b s =
      (.ok (p ++ (sep ++ (t ++ s'))).length, (s.note (ln, lg) (.int (len : Nat))).note (n, g) o) := by
  obtain ⟨f, rfl⟩ : ∃ f, fuel = f + 10 := ⟨fuel - 10, by omega⟩
  obtain ⟨c, tt, hc, hdig⟩ := lenText_head ht
  obtain ⟨hws, h37, _⟩ := digit_not_ws c hdig
  have hdrop : env.file.drop b = sep ++ (t ++ (s' ++ (t' ++ x))) := by rw [hf, hb]; simp
  have hsk : skipSC false (env.file.drop b) = .ok (t ++ (s' ++ (t' ++ x))) := by
    rw [hdrop, skipSC_sep hs]
    rw [hc]; exact notSep_byte hws h37
  have hd2 : env.file.drop (env.file.length - (t ++ (s' ++ (t' ++ x))).length) = t ++ (s' ++ (t' ++ x)) :=
    drop_of_append (a := p ++ sep) (by rw [hf]; simp)
  have hoff : env.file.length - (t ++ (s' ++ (t' ++ x))).length = (p ++ sep).length := by rw [hf]; simp; omega
  obtain ⟨c', tt', hc', hdig'⟩ := ind_head ht'
  obtain ⟨hws', h37', _⟩ := digit_not_ws c' hdig'
  have hns : NotStart SepChar (t' ++ x) := by rw [hc']; exact notSep_byte hws' h37'
  have hseek' := hseek s _ ln lg len n g o t _ hd2 ht
  have hnext := nextObject_behind env.file (p ++ sep) t s' (t' ++ x) (env.seek s (env.file.length - (t ++ (s' ++ (t' ++ x))).length))
    (by rw [hf]; simp) hend hs' hns (by rw [← hoff]; exact hseek'.1) (by rw [← hoff]; exact hseek'.2)
  have hpos : (p ++ sep ++ (t ++ s')).length = (p ++ (sep ++ (t ++ s'))).length := by simp
  rw [hpos] at hnext
  -- the first attempt
  have hbe : bodyElement env (f + 9) (env.file.length - (t ++ (s' ++ (t' ++ x))).length) s = (.error .recursion, s) := by
    rw [bodyElement_digit env _ _ _ t _ hd2 ⟨c, tt, hc, hdig⟩]
    refine objectAt_len_err env _ ln lg len n g o t _ s s ht hd2 (f + 6) _ ?_
    rw [locate_unlisted env ln lg s hu (by rw [hr]; intro v h; cases h) (f + 5) (by omega)]
    rw [bruteForce, hr]
    dsimp only
    rw [if_pos hst]
  -- the Length
  have hd3 : env.file.drop (p ++ (sep ++ (t ++ s'))).length = t' ++ x := by rw [hf]; simp
  have hsk3 : skipSC false (env.file.drop (p ++ (sep ++ (t ++ s'))).length) = .ok (t' ++ x) := by rw [hd3]; exact skipSC_nonsep hns
  have hoff3 : env.file.length - (t' ++ x).length = (p ++ (sep ++ (t ++ s'))).length := by rw [hf]; simp; omega
  have hbe3 : bodyElement env (f + 8) (env.file.length - (t' ++ x).length) s =
      (.ok (env.file.length - x.length), s.note (ln, lg) (.int (len : Nat))) := by
    rw [hoff3, bodyElement_digit env _ _ _ t' x hd3 ⟨c', tt', hc', hdig'⟩]
    exact objectAt_text env (f + 5) _ ln lg _ _ t' x s ht' hd3 (hdec _ _ _) rfl
  -- again
  have hk : regGet (s.note (ln, lg) (.int (len : Nat))).reg (ln, lg) = some (.int (len : Nat)) := by rw [regGet_note, hr]; simp
  have hbe4 : bodyElement env (f + 7) (env.file.length - (t ++ (s' ++ (t' ++ x))).length) (s.note (ln, lg) (.int (len : Nat))) =
      (.ok (env.file.length - (s' ++ (t' ++ x)).length), (s.note (ln, lg) (.int (len : Nat))).note (n, g) o) := by
    rw [bodyElement_digit env _ _ _ t _ hd2 ⟨c, tt, hc, hdig⟩]
    refine objectAt_len env _ ln lg len n g o t _ _ _ ht hd2 (hdec _ _ _) hw (f + 3) ?_
    by_cases htr : truthy (.int (len : Nat)) = true
    · rw [locate, hk]
      dsimp only
      rw [if_pos htr]
    · rw [locate_unlisted env ln lg _ hu (by rw [hk]; intro v h; cases h; simpa using htr) (f + 3) (by omega)]
      exact bruteForce_known env ln lg _ _ hk _
  rw [bruteLoop, hsk]
  dsimp only
  rw [hbe]
  dsimp only
  rw [hnext]
  dsimp only
  rw [bruteLoop, hsk3]
  dsimp only
  rw [hbe3]
  dsimp only
  rw [bruteLoop, hsk]
  dsimp only
  rw [hbe4]
  dsimp only
  rw [bruteLoop]
  rfl

/-! ### The whole body -/

/-- What the body says of a key. -/
def valueOf (es : List (Nat × Nat × Obj)) (k : Key) : Obj := (firstDef es k).getD .null

/-- The assumptions of this file. -/
structure Scene (env : Env) (es : List (Nat × Nat × Obj)) (revs : List Revision) (tail : Bytes) : Prop where
  dec : ∀ n g v, env.dec n g v = .ok v
  once : (es.map fun e => (e.1, e.2.1)).Nodup
  noPack : ∀ e ∈ es, isObjStm e.2.2 = false
  listed : ∀ r ∈ revs, ∀ n off g, r.inUse n = some (off, g) → ∃ o, (n, g, o) ∈ es ∧ StandsIn env.file es n g o off
  agree : AllAgree env.xrefs revs
  seek : SeeksWithin env.file env.seek
  ends : BodyEnd tail

/-- Listed and in the body. -/
def ListedIn (revs : List Revision) (es : List (Nat × Nat × Obj)) (n g : Nat) (o : Obj) : Prop :=
  (n, g, o) ∈ es ∧ ∃ r ∈ revs, ∃ off, r.inUse n = some (off, g)

theorem first_of_mem : ∀ (es : List (Nat × Nat × Obj)), (es.map fun e => (e.1, e.2.1)).Nodup → ∀ n g o, (n, g, o) ∈ es → firstDef es (n, g) = some o := by
  intro es
  induction es with
  | nil => intro _ n g o h; cases h
  | cons e es ih =>
    intro hn n g o h
    obtain ⟨n', g', o'⟩ := e
    rw [List.map_cons, List.nodup_cons] at hn
    rw [firstDef_cons]
    rcases List.mem_cons.mp h with h | h
    · cases h
      rw [if_pos rfl]
    · rw [if_neg]
      · exact ih hn.2 n g o h
      · intro e
        refine hn.1 (List.mem_map.mpr ⟨_, h, ?_⟩)
        exact e.symm

theorem firstDef_mem {es : List (Nat × Nat × Obj)} {n g : Nat} {o : Obj} (h : firstDef es (n, g) = some o) : (n, g, o) ∈ es := by
  induction es with
  | nil => cases h
  | cons e es ih =>
    obtain ⟨n', g', o'⟩ := e
    rw [firstDef_cons] at h
    split at h
    · rename_i e
      cases e
      cases h
      exact List.mem_cons_self
    · exact List.mem_cons_of_mem _ (ih h)

section
variable {env : Env} {es : List (Nat × Nat × Obj)} {revs : List Revision} {tail : Bytes}

theorem Scene.value (h : Scene env es revs tail) {n g : Nat} {o : Obj} (hm : (n, g, o) ∈ es) : valueOf es (n, g) = o := by
  unfold valueOf
  rw [first_of_mem es h.once n g o hm]
  rfl

/-- What is registered is right. -/
def Right (es : List (Nat × Nat × Obj)) (s : St) : Prop := ∀ k v, regGet s.reg k = some v → v = valueOf es k

theorem Right.note {s : St} (h : Right es s) {k : Key} {v : Obj} (hv : v = valueOf es k) : Right es (s.note k v) := by
  intro k' v' h'
  rw [regGet_note] at h'
  cases hr : regGet s.reg k' with
  | some u => rw [hr] at h'; cases h'; exact h k' _ hr
  | none =>
    rw [hr] at h'
    dsimp only at h'
    split at h'
    · rename_i e; cases h'; rw [hv, e]
    · cases h'

/-- More is registered, rightly; nothing else changes. -/
structure Learns (es : List (Nat × Nat × Obj)) (s s' : St) : Prop where
  right : Right es s'
  more : ∀ k, regGet s.reg k ≠ none → regGet s'.reg k ≠ none
  bf : s'.bf = s.bf
  stack : s'.stack = s.stack

theorem Learns.refl {s : St} (h : Right es s) : Learns es s s := ⟨h, fun _ h => h, rfl, rfl⟩

theorem Learns.trans {a b c : St} (h : Learns es a b) (h' : Learns es b c) : Learns es a c :=
  ⟨h'.right, fun k hk => h'.more k (h.more k hk), h'.bf.trans h.bf, h'.stack.trans h.stack⟩

theorem Learns.note {s : St} (h : Right es s) {k : Key} {v : Obj} (hv : v = valueOf es k) : Learns es s (s.note k v) := by
  refine ⟨h.note hv, fun k' hk' => ?_, ?_, note_stack _ _ _⟩
  · rw [regGet_note]
    cases hr : regGet s.reg k' with
    | some u => simp
    | none => exact absurd hr hk'
  · unfold St.note; split <;> rfl

theorem note_known {s : St} (h : Right es s) {k : Key} {v : Obj} (hv : v = valueOf es k) : regGet (s.note k v).reg k = some v := by
  rw [regGet_note]
  cases hr : regGet s.reg k with
  | some u => dsimp only; rw [h k u hr, hv]
  | none => simp

/-- A listed object is at its place. -/
theorem Scene.place (h : Scene env es revs tail) {x : XRef} (hx : x ∈ env.xrefs) {n g : Nat} (hl : Lists x n g) :
    ∃ e o, natGet x.inUse n = some e ∧ e.gen = g ∧ (n, g, o) ∈ es ∧ StandsIn env.file es n g o e.offset := by
  obtain ⟨r, hr, ha⟩ := agree_mem h.agree x hx
  obtain ⟨e, he, hg⟩ := hl
  have := ha n
  rw [he] at this
  obtain ⟨o, h1, h2⟩ := h.listed r hr n e.offset e.gen this.symm
  subst hg
  exact ⟨e, o, he, rfl, h1, h2⟩

/-- An integer which is known or listed is delivered. -/
theorem locate_easy (h : Scene env es revs tail) {n g : Nat} {k : Int} (hm : (n, g, .int k) ∈ es) {s : St} (hs : Right es s)
    (he : regGet s.reg (n, g) ≠ none ∨ ∃ x ∈ env.xrefs, Lists x n g) (fuel : Nat) (hf : env.xrefs.length + 5 ≤ fuel) :
    ∃ s', locate env fuel n g s = (.ok (.int k), s') ∧ Learns es s s' := by
  have hv := h.value hm
  by_cases ht : ∃ v, regGet s.reg (n, g) = some v ∧ truthy v = true
  · obtain ⟨v, h1, h2⟩ := ht
    have := hs _ _ h1
    rw [hv] at this
    subst this
    obtain ⟨f, rfl⟩ : ∃ f, fuel = f + 1 := ⟨fuel - 1, by omega⟩
    exact ⟨s, by rw [locate, h1]; dsimp only; rw [if_pos h2], .refl hs⟩
  · have hr : ∀ v, regGet s.reg (n, g) = some v → truthy v = false := fun v h1 => by
      cases htr : truthy v with
      | false => rfl
      | true => exact absurd ⟨v, h1, htr⟩ ht
    rcases first_listed n g env.xrefs with hu | ⟨pre, x, post, hx, hpre, hl⟩
    · rcases he with he | ⟨x, hx, hl⟩
      · cases hreg : regGet s.reg (n, g) with
        | none => exact absurd hreg he
        | some v =>
          have := hs _ _ hreg
          rw [hv] at this
          subst this
          obtain ⟨f, rfl⟩ : ∃ f, fuel = f + 2 := ⟨fuel - 2, by omega⟩
          refine ⟨s, ?_, .refl hs⟩
          rw [locate_unlisted env n g s hu hr (f + 1) (by omega)]
          exact bruteForce_known env n g s _ hreg f
      · exact absurd hl (hu x hx)
    · obtain ⟨e, o, h1, h2, h3, t, rest, h4, h5⟩ := h.place (x := x) (by rw [hx]; simp) hl
      have ho : o = .int k := by rw [← h.value h3, hv]
      subst ho
      rcases h5 with h5 | ⟨ln, lg, len, h5, _⟩
      · have hlen : env.xrefs.length = pre.length + 1 + post.length := by rw [hx]; simp; omega
        obtain ⟨f, rfl⟩ : ∃ f, fuel = (f + 2) + 2 + pre.length := ⟨fuel - 4 - pre.length, by omega⟩
        refine ⟨s.note (n, g) (.int k), ?_, .note hs hv.symm⟩
        exact locate_found_at env n g pre x post e s _ _ _ hx hr hpre h1 h2 (f + 2)
          (objectAt_text env f _ n g _ _ t rest s h5 h4 (h.dec _ _ _) rfl) (note_known hs hv.symm)
      · obtain ⟨d, raw, h⟩ := lenText_stream h5
        cases h

variable (es revs) in
/-- Where the scan stands: everything before is registered. -/
def Before (env : Env) (tail : Bytes) (s : St) (es2 : List (Nat × Nat × Obj)) (b : Bytes) : Prop :=
  ∃ es1 p, es = es1 ++ es2 ∧ ScanText (ListedIn revs es) es2 b ∧ env.file = p ++ (b ++ tail) ∧ s.bf = p.length ∧
    ∀ e ∈ es1, regGet s.reg (e.1, e.2.1) ≠ none

theorem Before.learns {s s' : St} {es2 : List (Nat × Nat × Obj)} {b : Bytes} (h : Before es revs env tail s es2 b) (hl : Learns es s s') :
    Before es revs env tail s' es2 b := by
  obtain ⟨es1, p, h1, h2, h3, h4, h5⟩ := h
  exact ⟨es1, p, h1, h2, h3, hl.bf.trans h4, fun e he => hl.more _ (h5 e he)⟩

/-- The parser between two lookups. -/
structure Ready (env : Env) (es : List (Nat × Nat × Obj)) (revs : List Revision) (tail : Bytes) (s : St) : Prop where
  right : Right es s
  stack : s.stack = []
  at' : ∃ es2 b, Before es revs env tail s es2 b

/-- One element of the body is a step of the scan. -/
theorem bruteForce_step {n g : Nat} {s s1 : St} {b : Nat} (hr : regGet s.reg (n, g) = none) (hst : (n, g) ∉ s.stack) (fuel : Nat)
    (hl : bruteLoop env fuel [s.bf] none s.bf { s with stack := (n, g) :: s.stack } = (.ok b, s1)) :
    bruteForce env (fuel + 1) n g s = bruteForce env fuel n g { s1 with bf := b, stack := s.stack } := by
  rw [bruteForce, hr]
  dsimp only
  rw [if_neg hst, hl]

/-- The Length of the stream where the scan stands is found, while looking for another object. -/
theorem length_nested (h : Scene env es revs tail) {n g ln lg len : Nat} {o : Obj} {sep t s' t' x p : Bytes} {s : St}
    (hf : env.file = p ++ (sep ++ (t ++ (s' ++ (t' ++ x))))) (hb : s.bf = p.length) (hs : Sep sep) (ht : LenText ln lg len n g o t) (hend : EndsOnce t) (hs' : Sep s')
    (ht' : IndText ln lg (.int (len : Nat)) t') (hw : isObjStm o = false) (hst : (ln, lg) ∉ s.stack) (hu : ∀ y ∈ env.xrefs, ¬ Lists y ln lg)
    (hr : regGet s.reg (ln, lg) = none) (fuel : Nat) (hfuel : env.xrefs.length + 12 ≤ fuel) :
    locate env fuel ln lg s = (.ok (.int (len : Nat)),
      { (({ s with stack := (ln, lg) :: s.stack } : St).note (ln, lg) (.int (len : Nat))).note (n, g) o with
        bf := (p ++ (sep ++ (t ++ s'))).length, stack := s.stack }) := by
  obtain ⟨f, rfl⟩ : ∃ f, fuel = f + 2 := ⟨fuel - 2, by omega⟩
  rw [locate_unlisted env ln lg s hu (by rw [hr]; intro v h; cases h) (f + 1) (by omega)]
  rw [bruteForce_step hr hst f (bruteLoop_behind env h.dec h.seek s.bf n g o ln lg len sep t s' t' x p { s with stack := (ln, lg) :: s.stack }
    hf hb hs ht hend hs' ht' hw (by simp) hu hr f (by omega))]
  obtain ⟨f', rfl⟩ : ∃ f', f = f' + 1 := ⟨f - 1, by omega⟩
  refine bruteForce_known env ln lg _ _ ?_ f'
  dsimp only
  rw [regGet_note, regGet_note]
  dsimp only
  rw [hr]
  simp

/-- A stream whose Length is located is a step of the scan. -/
theorem bruteLoop_len {b n g ln lg len : Nat} {o : Obj} {sep t x p : Bytes} {s s1 : St} (hf : env.file = p ++ (sep ++ (t ++ x)))
    (hb : b = p.length) (hs : Sep sep) (ht : LenText ln lg len n g o t) (hdec : env.dec n g o = .ok o) (hw : isObjStm o = false) (fuel : Nat)
    (hl : locate env (fuel + 1) ln lg s = (.ok (.int (len : Nat)), s1)) :
    bruteLoop env (fuel + 5) [b] none b s = (.ok (env.file.length - x.length), s1.note (n, g) o) := by
  obtain ⟨c, t', hc, hdig⟩ := lenText_head ht
  obtain ⟨hws, h37, _⟩ := digit_not_ws c hdig
  have hdrop : env.file.drop b = sep ++ (t ++ x) := by rw [hf, hb]; simp
  have hsk : skipSC false (env.file.drop b) = .ok (t ++ x) := by
    rw [hdrop, skipSC_sep hs]
    rw [hc]; exact notSep_byte hws h37
  have hd2 : env.file.drop (env.file.length - (t ++ x).length) = t ++ x :=
    drop_of_append (a := p ++ sep) (by rw [hf]; simp)
  have hbe : bodyElement env (fuel + 4) (env.file.length - (t ++ x).length) s = (.ok (env.file.length - x.length), s1.note (n, g) o) := by
    rw [bodyElement_digit env _ _ _ t _ hd2 ⟨c, t', hc, hdig⟩]
    exact objectAt_len env _ ln lg len n g o t x s s1 ht hd2 hdec hw fuel hl
  rw [bruteLoop, hsk]
  dsimp only
  rw [hbe]
  dsimp only
  rw [bruteLoop]
  rfl

theorem agree_mem' {xs : List XRef} {revs : List Revision} (h : AllAgree xs revs) : ∀ r ∈ revs, ∃ x ∈ xs, Agrees x r := by
  induction h with
  | nil => intro r hr; cases hr
  | @cons x r xs rs hx hxs ih =>
    intro y hy
    rcases List.mem_cons.mp hy with rfl | hy
    · exact ⟨x, List.mem_cons_self, hx⟩
    · obtain ⟨x', h1, h2⟩ := ih y hy
      exact ⟨x', List.mem_cons_of_mem _ h1, h2⟩

theorem right_with {s : St} (h : Right es s) (b : Nat) (st : List Key) : Right es { s with bf := b, stack := st } := h

/-- What a step of the scan leaves. -/
theorem Before.step {s s1 : St} {es1 done es2 : List (Nat × Nat × Obj)} {p b : Bytes} {bb : Nat} (he : es = es1 ++ (done ++ es2))
    (ht : ScanText (ListedIn revs es) es2 b) (hf : env.file = p ++ (b ++ tail)) (hbb : bb = p.length)
    (hmore : ∀ k, regGet s.reg k ≠ none → regGet s1.reg k ≠ none) (h1 : ∀ e ∈ es1, regGet s.reg (e.1, e.2.1) ≠ none)
    (h2 : ∀ e ∈ done, regGet s1.reg (e.1, e.2.1) ≠ none) (st : List Key) : Before es revs env tail { s1 with bf := bb, stack := st } es2 b := by
  refine ⟨es1 ++ done, p, by rw [he]; simp, ht, hf, hbb, fun e hm => ?_⟩
  rcases List.mem_append.mp hm with hm | hm
  · exact hmore _ (h1 e hm)
  · exact h2 e hm

theorem note_more (s : St) (k : Key) (v : Obj) : (∀ k', regGet s.reg k' ≠ none → regGet (s.note k v).reg k' ≠ none) ∧ regGet (s.note k v).reg k ≠ none := by
  refine ⟨fun k' h => ?_, ?_⟩ <;> rw [regGet_note]
  · cases hr : regGet s.reg k' with
    | some u => simp
    | none => exact absurd hr h
  · cases hr : regGet s.reg k with
    | some u => simp
    | none => simp

/-- Scanning finds what the body says, or null. -/
theorem scan_finds (h : Scene env es revs tail) (n g : Nat) : ∀ (m : Nat) (b : Bytes) (es2 : List (Nat × Nat × Obj)) (s : St), b.length < m →
    Right es s → s.stack = [] → Before es revs env tail s es2 b → (regGet s.reg (n, g) ≠ none ∨ ∀ y ∈ env.xrefs, ¬ Lists y n g) →
    ∀ fuel, b.length + env.xrefs.length + 40 ≤ fuel →
    ∃ s', bruteForce env fuel n g s = (.ok (valueOf es (n, g)), s') ∧ Ready env es revs tail s' ∧ ∀ k, regGet s.reg k ≠ none → regGet s'.reg k ≠ none := by
  intro m
  induction m with
  | zero => intro b es2 s hb; exact absurd hb (by omega)
  | succ m ih =>
    intro b es2 s hb hs hst hbe hor fuel hfuel
    obtain ⟨f, rfl⟩ : ∃ f, fuel = f + 11 := ⟨fuel - 11, by omega⟩
    cases hr : regGet s.reg (n, g) with
    | some v => exact ⟨s, by rw [bruteForce_known env n g s v hr, hs _ _ hr], ⟨hs, hst, _, _, hbe⟩, fun _ h => h⟩
    | none =>
      have hu : ∀ y ∈ env.xrefs, ¬ Lists y n g := hor.resolve_left (fun h => h hr)
      have hns : (n, g) ∉ s.stack := by rw [hst]; simp
      have hbe' := hbe
      obtain ⟨es1, p, e, ht, hf, hbf, hreg⟩ := hbe
      -- one step
      have step : ∀ (bb : Nat) (s1 : St) (es3 : List (Nat × Nat × Obj)) (b' : Bytes),
          bruteLoop env (f + 10) [s.bf] none s.bf { s with stack := (n, g) :: s.stack } = (.ok bb, s1) → Right es s1 →
          (∀ k, regGet s.reg k ≠ none → regGet s1.reg k ≠ none) → Before es revs env tail { s1 with bf := bb, stack := s.stack } es3 b' → b'.length < b.length →
          ∃ s', bruteForce env (f + 11) n g s = (.ok (valueOf es (n, g)), s') ∧ Ready env es revs tail s' ∧ ∀ k, regGet s.reg k ≠ none → regGet s'.reg k ≠ none := by
        intro bb s1 es3 b' hl h1 h2 h3 h4
        obtain ⟨s', e1, e2, e3⟩ := ih b' es3 { s1 with bf := bb, stack := s.stack } (by omega) (right_with h1 _ _) hst h3 (Or.inr hu) (f + 10) (by omega)
        exact ⟨s', by rw [bruteForce_step hr hns _ hl]; exact e1, e2, fun k hk => e3 k (h2 k hk)⟩
      have hsk : Right es { s with stack := (n, g) :: s.stack } := hs
      cases ht with
      | nil _ hsep =>
        have hl := bruteLoop_end env (f + 8) s.bf b tail p { s with stack := (n, g) :: s.stack } hf hbf hsep h.ends
        have hv : valueOf es (n, g) = .null := by
          unfold valueOf
          cases hd : firstDef es (n, g) with
          | none => rfl
          | some o =>
            have := firstDef_mem hd
            rw [e, List.append_nil] at this
            exact absurd hr (hreg _ this)
        have hmore : ∀ k, regGet s.reg k ≠ none → regGet (s.put (n, g) .null).reg k ≠ none := fun k hk => by
          rw [regGet_reg_put]; split
          · simp
          · exact hk
        refine ⟨{ ({ s with stack := (n, g) :: s.stack } : St).put (n, g) .null with stack := s.stack }, ?_, ⟨?_, hst, [], b, es1, p, e, .nil b hsep, hf, hbf, fun e he => hmore _ (hreg e he)⟩, hmore⟩
        · rw [bruteForce, hr]
          dsimp only
          rw [if_neg hns, hl]
          dsimp only
          rw [hr, hv]
        · intro k v hk
          replace hk : regGet (s.put (n, g) .null).reg k = some v := hk
          rw [regGet_reg_put] at hk
          split at hk
          · rename_i e; cases hk; rw [← e, hv]
          · exact hs k v hk
      | plain n' g' o es3 sep t u hsep hi hu' =>
        have hm : (n', g', o) ∈ es := by rw [e]; simp
        have hf' : env.file = p ++ (sep ++ (t ++ (u ++ tail))) := by rw [hf]; simp
        have hl := bruteLoop_object env (f + 6) s.bf n' g' o o sep t (u ++ tail) p { s with stack := (n, g) :: s.stack } hf' hbf hsep hi (h.dec _ _ _)
          (h.noPack _ hm)
        have hmo := note_more ({ s with stack := (n, g) :: s.stack } : St) (n', g') o
        refine step _ _ es3 u hl (hsk.note (h.value hm).symm) hmo.1 ?_ ?_
        · exact Before.step (done := [(n', g', o)]) (p := p ++ (sep ++ t)) e hu' (by rw [hf]; simp) (by rw [hf]; simp; omega) hmo.1 hreg
            (by intro x hx; simp at hx; subst hx; exact hmo.2) _
        · obtain ⟨c, t', hc, _⟩ := ind_head hi
          rw [hc]; simp; omega
      | far n' g' o ln lg len es3 sep t u hsep hi hli hu' =>
        have hm : (n', g', o) ∈ es := by rw [e]; simp
        have hf' : env.file = p ++ (sep ++ (t ++ (u ++ tail))) := by rw [hf]; simp
        obtain ⟨hmem, r, hrm, off, hoff⟩ := hli
        obtain ⟨x, hx, hxl⟩ : ∃ x ∈ env.xrefs, Lists x ln lg := by
          obtain ⟨x, hx, ha⟩ := agree_mem' h.agree r hrm
          exact ⟨x, hx, (agree_lists ha).mpr ⟨off, hoff⟩⟩
        obtain ⟨s1, e1, l1⟩ := locate_easy h hmem hsk (Or.inr ⟨x, hx, hxl⟩) (f + 6) (by omega)
        have hl := bruteLoop_len hf' hbf hsep hi (h.dec _ _ _) (h.noPack _ hm) (f + 5) e1
        have hmo := note_more s1 (n', g') o
        have hmo' : ∀ k, regGet s.reg k ≠ none → regGet (s1.note (n', g') o).reg k ≠ none := fun k hk => hmo.1 k (l1.more k hk)
        refine step _ _ es3 u hl (l1.right.note (h.value hm).symm) hmo' ?_ ?_
        · exact Before.step (done := [(n', g', o)]) (p := p ++ (sep ++ t)) e hu' (by rw [hf]; simp) (by rw [hf]; simp; omega) hmo' hreg
            (by intro x hx; simp at hx; subst hx; exact hmo.2) _
        · obtain ⟨c, t', hc, _⟩ := lenText_head hi
          rw [hc]; simp; omega
      | behind n' g' o ln lg len es3 sep t s' t' u hsep hi hend hs' hi' hu' =>
        have hm : (n', g', o) ∈ es := by rw [e]; simp
        have hml : (ln, lg, .int (len : Nat)) ∈ es := by rw [e]; simp
        have hf' : env.file = p ++ (sep ++ (t ++ (s' ++ (t' ++ (u ++ tail))))) := by rw [hf]; simp
        have hshort : (s' ++ (t' ++ u)).length < (sep ++ (t ++ (s' ++ (t' ++ u)))).length := by
          obtain ⟨c, t', hc, _⟩ := lenText_head hi
          rw [hc]; simp; omega
        have next : ScanText (ListedIn revs es) ((ln, lg, .int (len : Nat)) :: es3) (s' ++ (t' ++ u)) := .plain ln lg _ es3 s' t' u hs' hi' hu'
        -- once the Length is located
        have known : ∀ s1, locate env (f + 6) ln lg { s with stack := (n, g) :: s.stack } = (.ok (.int (len : Nat)), s1) → Right es s1 →
            (∀ k, regGet s.reg k ≠ none → regGet s1.reg k ≠ none) →
            ∃ s', bruteForce env (f + 11) n g s = (.ok (valueOf es (n, g)), s') ∧ Ready env es revs tail s' ∧ ∀ k, regGet s.reg k ≠ none → regGet s'.reg k ≠ none := by
          intro s1 e1 r1 m1
          have hl := bruteLoop_len hf' hbf hsep hi (h.dec _ _ _) (h.noPack _ hm) (f + 5) e1
          have hmo := note_more s1 (n', g') o
          have hmo' : ∀ k, regGet s.reg k ≠ none → regGet (s1.note (n', g') o).reg k ≠ none := fun k hk => hmo.1 k (m1 k hk)
          refine step _ _ ((ln, lg, .int (len : Nat)) :: es3) (s' ++ (t' ++ u)) hl (r1.note (h.value hm).symm) hmo' ?_ hshort
          exact Before.step (done := [(n', g', o)]) (p := p ++ (sep ++ t)) e next (by rw [hf]; simp) (by rw [hf]; simp; omega) hmo' hreg
            (by intro x hx; simp at hx; subst hx; exact hmo.2) _
        by_cases heasy : regGet s.reg (ln, lg) ≠ none ∨ ∃ x ∈ env.xrefs, Lists x ln lg
        · obtain ⟨s1, e1, l1⟩ := locate_easy h hml hsk heasy (f + 6) (by omega)
          exact known s1 e1 l1.right l1.more
        · have hlr : regGet s.reg (ln, lg) = none := by
            cases hq : regGet s.reg (ln, lg) with
            | none => rfl
            | some v => exact absurd (Or.inl (by rw [hq]; simp)) heasy
          have hlu : ∀ y ∈ env.xrefs, ¬ Lists y ln lg := fun y hy hl => heasy (Or.inr ⟨y, hy, hl⟩)
          by_cases hsame : (ln, lg) = (n, g)
          · obtain ⟨rfl, rfl⟩ := Prod.mk.inj hsame
            have hl := bruteLoop_behind env h.dec h.seek s.bf n' g' o ln lg len sep t s' t' (u ++ tail) p { s with stack := (ln, lg) :: s.stack }
              hf' hbf hsep hi hend hs' hi' (h.noPack _ hm) (by simp) hlu hlr (f + 10) (by omega)
            have hmo1 := note_more ({ s with stack := (ln, lg) :: s.stack } : St) (ln, lg) (.int (len : Nat))
            have hmo := note_more (({ s with stack := (ln, lg) :: s.stack } : St).note (ln, lg) (.int (len : Nat))) (n', g') o
            have hmo' : ∀ k, regGet s.reg k ≠ none → regGet ((({ s with stack := (ln, lg) :: s.stack } : St).note (ln, lg) (.int (len : Nat))).note (n', g') o).reg k ≠ none :=
              fun k hk => hmo.1 k (hmo1.1 k hk)
            refine step _ _ ((ln, lg, .int (len : Nat)) :: es3) ([] ++ (t' ++ u)) hl ((hsk.note (h.value hml).symm).note (h.value hm).symm) hmo' ?_ ?_
            · exact Before.step (done := [(n', g', o)]) (p := p ++ (sep ++ (t ++ s'))) e (.plain ln lg _ es3 [] t' u .nil hi' hu') (by rw [hf]; simp) rfl hmo' hreg
                (by intro x hx; simp at hx; subst hx; exact hmo.2) _
            · simp at hshort ⊢; omega
          · have hl := length_nested h (s := { s with stack := (n, g) :: s.stack }) hf' hbf hsep hi hend hs' hi' (h.noPack _ hm)
              (by rw [hst]; simpa using hsame) hlu hlr (f + 6) (by omega)
            refine known _ hl ?_ ?_
            · exact Right.note (s := ({ s with stack := (ln, lg) :: (n, g) :: s.stack } : St).note (ln, lg) (.int (len : Nat)))
                (Right.note (s := { s with stack := (ln, lg) :: (n, g) :: s.stack }) hs (h.value hml).symm) (h.value hm).symm
            · intro k hk
              exact (note_more (({ s with stack := (ln, lg) :: (n, g) :: s.stack } : St).note (ln, lg) (.int (len : Nat))) _ _).1 k
                ((note_more { s with stack := (ln, lg) :: (n, g) :: s.stack } _ _).1 k hk)
      | startxref _ sep s₁ ds u hsep h1 hds hne hu1 hu' =>
        have hf' : env.file = p ++ (sep ++ (b!"startxref" ++ (s₁ ++ (ds ++ (u ++ tail))))) := by rw [hf]; simp
        have hl := bruteLoop_startxref hf' hbf hsep h1 hds (x := u ++ tail) (by
          cases u with
          | nil => exact absurd rfl hne
          | cons c u' => intro c' t' e; cases e; exact hu1 c u' rfl) { s with stack := (n, g) :: s.stack } (f + 8)
        refine step _ _ es2 u hl hsk (fun _ h => h) ?_ ?_
        · exact Before.step (s := s) (done := []) (p := p ++ (sep ++ (b!"startxref" ++ (s₁ ++ ds)))) e hu' (by rw [hf]; simp) (by rw [hf]; simp; omega) (fun _ h => h) hreg
            (by intro x hx; cases hx) _
        · simp; omega

theorem Ready.learns {s s' : St} (h : Ready env es revs tail s) (hl : Learns es s s') : Ready env es revs tail s' := by
  obtain ⟨es2, b, hb⟩ := h.at'
  exact ⟨hl.right, hl.stack.trans h.stack, es2, b, hb.learns hl⟩

/-- An object which no section lists is found by scanning. -/
theorem locate_scan (h : Scene env es revs tail) {n g : Nat} {s : St} (hs : Ready env es revs tail s) (hu : ∀ y ∈ env.xrefs, ¬ Lists y n g)
    (fuel : Nat) (hf : env.file.length + env.xrefs.length + 42 ≤ fuel) :
    ∃ s', locate env fuel n g s = (.ok (valueOf es (n, g)), s') ∧ Ready env es revs tail s' := by
  obtain ⟨f, rfl⟩ : ∃ f, fuel = f + 1 := ⟨fuel - 1, by omega⟩
  by_cases ht : ∃ v, regGet s.reg (n, g) = some v ∧ truthy v = true
  · obtain ⟨v, h1, h2⟩ := ht
    refine ⟨s, ?_, hs⟩
    rw [locate, h1]
    dsimp only
    rw [if_pos h2, hs.right _ _ h1]
  · have hr : ∀ v, regGet s.reg (n, g) = some v → truthy v = false := fun v h1 => by
      cases htr : truthy v with
      | false => rfl
      | true => exact absurd ⟨v, h1, htr⟩ ht
    obtain ⟨es2, b, hb⟩ := hs.at'
    have hlen : b.length ≤ env.file.length := by
      obtain ⟨_, p, _, _, hf, _⟩ := hb
      rw [hf]; simp; omega
    obtain ⟨s', e, h1, _⟩ := scan_finds h n g (b.length + 1) b es2 s (by omega) hs.right hs.stack hb (Or.inr hu) f (by omega)
    exact ⟨s', by rw [locate_unlisted env n g s hu hr f (by omega)]; exact e, h1⟩

/-- Every reference is resolved to what the body says. -/
theorem locate_ready (h : Scene env es revs tail) (n g : Nat) {s : St} (hs : Ready env es revs tail s)
    (fuel : Nat) (hf : env.file.length + 2 * env.xrefs.length + 50 ≤ fuel) :
    ∃ s', locate env fuel n g s = (.ok (valueOf es (n, g)), s') ∧ Ready env es revs tail s' := by
  by_cases ht : ∃ v, regGet s.reg (n, g) = some v ∧ truthy v = true
  · obtain ⟨v, h1, h2⟩ := ht
    obtain ⟨f, rfl⟩ : ∃ f, fuel = f + 1 := ⟨fuel - 1, by omega⟩
    refine ⟨s, ?_, hs⟩
    rw [locate, h1]
    dsimp only
    rw [if_pos h2, hs.right _ _ h1]
  · have hr : ∀ v, regGet s.reg (n, g) = some v → truthy v = false := fun v h1 => by
      cases htr : truthy v with
      | false => rfl
      | true => exact absurd ⟨v, h1, htr⟩ ht
    rcases first_listed n g env.xrefs with hu | ⟨pre, x, post, hx, hpre, hl⟩
    · exact locate_scan h hs hu fuel (by omega)
    · obtain ⟨e, o, h1, h2, h3, t, rest, h4, h5⟩ := h.place (x := x) (by rw [hx]; simp) hl
      have hlen : env.xrefs.length = pre.length + 1 + post.length := by rw [hx]; simp; omega
      have hv := h.value h3
      obtain ⟨f, rfl⟩ : ∃ f, fuel = (f + 3) + 2 + pre.length := ⟨fuel - 5 - pre.length, by omega⟩
      rcases h5 with h5 | ⟨ln, lg, len, h5, h6⟩
      · refine ⟨s.note (n, g) o, ?_, hs.learns (.note hs.right hv.symm)⟩
        rw [hv]
        exact locate_found_at env n g pre x post e s _ _ _ hx hr hpre h1 h2 (f + 3)
          (objectAt_text env (f + 1) _ n g _ _ t rest s h5 h4 (h.dec _ _ _) (h.noPack _ h3)) (note_known hs.right hv.symm)
      · have hloc : ∃ s1, locate env (f + 1) ln lg s = (.ok (.int (len : Nat)), s1) ∧ Ready env es revs tail s1 := by
          by_cases heasy : ∃ x ∈ env.xrefs, Lists x ln lg
          · obtain ⟨s1, e1, l1⟩ := locate_easy h h6 hs.right (Or.inr heasy) (f + 1) (by omega)
            exact ⟨s1, e1, hs.learns l1⟩
          · obtain ⟨s1, e1, l1⟩ := locate_scan h (n := ln) (g := lg) hs (fun y hy hl => heasy ⟨y, hy, hl⟩) (f + 1) (by omega)
            rw [h.value h6] at e1
            exact ⟨s1, e1, l1⟩
        obtain ⟨s1, e1, r1⟩ := hloc
        refine ⟨s1.note (n, g) o, ?_, r1.learns (.note r1.right hv.symm)⟩
        rw [hv]
        exact locate_found_at env n g pre x post e s _ _ _ hx hr hpre h1 h2 (f + 3)
          (objectAt_len env _ ln lg len n g o t rest s s1 h5 h4 (h.dec _ _ _) (h.noPack _ h3) f e1) (note_known r1.right hv.symm)

end

/-- The code seeks from the beginning of the stream, at the least. -/
theorem seeks_default (file : Bytes) : SeeksWithin file (fun _ off => off) := by
  intro s off ln lg len n g o t rest _ ht
  refine ⟨Nat.le_refl _, ?_⟩
  cases ht with
  | mk ns gs s₁ s₂ s₃ s₄ raw u s nl data w => simp; omega

end PdfReader
