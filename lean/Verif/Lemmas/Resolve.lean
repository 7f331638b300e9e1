/-
  Reading well-formed indirect objects, bodies and object streams (Verif/Model/Locate.lean).
-/
import Verif.Lemmas.Locate
import Verif.Lemmas.Stream
import Verif.Lemmas.GrammarParse
import Verif.Spec.Document

namespace PdfReader

open Spec

theorem sep_stop {s x : Bytes} (hs : Sep s) (hne : s ≠ []) : Stop (s ++ x) := by
  intro c t h hr
  cases hs with
  | nil => exact hne rfl
  | ws c' s' hc _ => cases h; exact hr.1 hc
  | comment b e s' _ _ _ => cases h; exact hr.2 (by simp [Delim])

theorem stop_dot {x : Bytes} (h : Stop x) : NotStart (· = 46) x := by
  intro c t e hc
  subst hc
  exact h _ _ e ((regular_iff _).mpr rfl)

theorem notSep_byte {c : Byte} {t : Bytes} (h1 : isWs c = false) (h2 : c ≠ 37) : NotStart SepChar (c :: t) := by
  apply notStart_mk
  rintro (h | h)
  · rw [ws_iff, h1] at h; cases h
  · exact h2 h

theorem digits_notSep {ds x : Bytes} (h : Digits ds) : NotStart SepChar (ds ++ x) := by
  obtain ⟨c, t, rfl, hc⟩ := digits_head h
  obtain ⟨h1, h2, _⟩ := digit_not_ws c hc
  exact notSep_byte h1 h2

theorem follow_endobj {o : Obj} {s x : Bytes} (hs : Sep s) (hstop : needsStop o = true → s ≠ []) : Follow true o s (b!"endobj" ++ x) where
  sep := hs
  rest := notSep_byte rfl (by decide)
  stop := fun h => sep_stop hs (hstop h)
  look := by
    intro _ _ neg sg ds r₁ h hsg hd
    exfalso
    obtain ⟨c, t, rfl, hc⟩ := digits_head hd
    rcases hsg with ⟨_, h' | h'⟩ | ⟨_, h'⟩ <;> subst h' <;> injection h with h _ <;>
      first
        | (exact absurd h (by decide))
        | (subst h; revert hc; decide)
  noStream := by
    intro _
    apply notStart_mk
    decide

theorem val_parse (cfg : Cfg) (hc : cfg.NoDiv) (hr : cfg.refs = true) {o : Obj} {t s x : Bytes} (h : ValText o t) (hs : Sep s)
    (hstop : needsStop o = true → s ≠ []) :
    ∃ r, parseObject cfg (t ++ (s ++ (b!"endobj" ++ x))) = .ok (o, r) ∧ skipSC false r = .ok (b!"endobj" ++ x) ∧ isValue o = true := by
  have hend : NotStart SepChar (b!"endobj" ++ x) := notSep_byte rfl (by decide)
  cases h with
  | obj _ _ hd =>
    have := parse_den cfg hc (s0 := []) (by rw [hr]; exact hd) .nil (by rw [hr]; exact follow_endobj (x := x) hs hstop)
    refine ⟨_, this, ?_, ?_⟩
    · unfold leftover
      split
      · exact skipSC_nonsep hend
      · exact skipSC_sep hs hend
    · cases hd <;> rfl
  | stream raw u s' nl data w hu hs' hnl hw hlen =>
    refine ⟨s ++ (b!"endobj" ++ x), ?_, skipSC_sep hs hend, rfl⟩
    have e : (60 :: 60 :: (u ++ 62 :: 62 :: (s' ++ (b!"stream" ++ (nl ++ (data ++ (w ++ b!"endstream"))))))) ++ (s ++ (b!"endobj" ++ x)) =
        60 :: 60 :: (u ++ 62 :: 62 :: (s' ++ (b!"stream" ++ (nl ++ (data ++ (w ++ (b!"endstream" ++ (s ++ (b!"endobj" ++ x))))))))) := by
      simp
    rw [e, parse_dict_stream cfg hc (by rw [hr]; exact hu) hs']
    unfold streamP
    rw [dictGet_dictOf, hlen]
    exact streamBody_exact _ _ _ _ _ hnl hw

theorem notSep_obj (x : Bytes) : NotStart SepChar (b!"obj" ++ x) := notSep_byte rfl (by decide)

/-- The text of an indirect object is read as that object. -/
theorem indirect_text (cfg : Cfg) (hc : cfg.NoDiv) (hr : cfg.refs = true) {n g : Nat} {o : Obj} {t x : Bytes} (h : IndText n g o t) :
    indirectObject cfg (t ++ x) = .ok ((n, g, o), x) := by
  cases h with
  | mk ns gs s₁ s₂ s₃ s₄ _ t hn hg h1 h1' h2 h2' h3 hv h4 h4' =>
    obtain ⟨r, hp, hsk, hval⟩ := val_parse cfg hc hr (x := x) hv h4 h4'
    have e : (ns ++ (s₁ ++ (gs ++ (s₂ ++ (b!"obj" ++ (s₃ ++ (t ++ (s₄ ++ b!"endobj")))))))) ++ x =
        ns ++ (s₁ ++ (gs ++ (s₂ ++ (b!"obj" ++ (s₃ ++ (t ++ (s₄ ++ (b!"endobj" ++ x)))))))) := by simp
    rw [e]
    have hhead : NotStart SepChar (t ++ (s₄ ++ (b!"endobj" ++ x))) := by
      cases hv with
      | obj _ _ hd =>
        obtain ⟨c, t', rfl, hcs⟩ := den_head hd
        exact objStart_notSep hcs
      | stream => exact notSep_byte rfl (by decide)
    have hh : objHeader (ns ++ (s₁ ++ (gs ++ (s₂ ++ (b!"obj" ++ (s₃ ++ (t ++ (s₄ ++ (b!"endobj" ++ x))))))))) =
        .ok ((decVal ns, decVal gs), t ++ (s₄ ++ (b!"endobj" ++ x))) := by
      unfold objHeader
      rw [nonNegInt_digits hn (stop_digit (sep_stop h1 h1')) (stop_dot (sep_stop h1 h1'))]
      simp only
      rw [skipSC_sep h1 (digits_notSep hg)]
      simp only
      rw [nonNegInt_digits hg (stop_digit (sep_stop h2 h2')) (stop_dot (sep_stop h2 h2'))]
      simp only
      rw [skipSC_sep h2 (notSep_obj _)]
      simp only
      rw [show readN 3 (b!"obj" ++ (s₃ ++ (t ++ (s₄ ++ (b!"endobj" ++ x))))) = .ok (b!"obj", s₃ ++ (t ++ (s₄ ++ (b!"endobj" ++ x))))
        from readN_append b!"obj" _]
      simp only [if_true]
      rw [skipSC_sep h3 hhead]
    unfold indirectObject
    rw [hh]
    simp only
    rw [hp]
    simp only
    unfold objTail
    rw [hsk]
    simp only
    rw [show readN 6 (b!"endobj" ++ x) = .ok (b!"endobj", x) from readN_append b!"endobj" _]
    simp only [if_true]
    rw [if_pos hval]

theorem askCfg_noDiv (known : List (Key × Obj)) : (askCfg known).NoDiv := by
  intro f n g h
  cases h
  dsimp only
  split <;> simp

/-- The state after an object was read. -/
def St.note (s : St) (k : Key) (v : Obj) : St :=
  match regGet s.reg k with
  | some _ => s
  | none => s.put k v

theorem register_plain (env : Env) (fuel num gen : Nat) (v : Obj) (s : St) (hv : isObjStm v = false) :
    register env (fuel + 1) num gen v s = (.ok (), s.note (num, gen) v) := by
  rw [register]
  unfold St.note
  cases regGet s.reg (num, gen) with
  | some u => rfl
  | none =>
    dsimp only
    split
    · rw [hv, if_neg (by decide)]
    · rfl

theorem objectAt_text (env : Env) (fuel off n g : Nat) (o w : Obj) (t x : Bytes) (s : St) (ht : IndText n g o t)
    (hd : env.file.drop off = t ++ x) (hdec : env.dec n g o = .ok w) (hw : isObjStm w = false) :
    objectAt env (fuel + 2) off s = (.ok (env.file.length - x.length), s.note (n, g) w) := by
  rw [objectAt, parseAt, hd, indirect_text (askCfg []) (askCfg_noDiv _) rfl ht]
  dsimp only
  rw [hdec]
  dsimp only
  rw [register_plain _ _ _ _ _ _ hw]

/-- The section lists this object as in use. -/
def Lists (x : XRef) (n g : Nat) : Prop := ∃ e, natGet x.inUse n = some e ∧ e.gen = g

theorem byXref_skip (env : Env) (n g : Nat) (s : St) (post : List XRef) : ∀ (pre : List XRef) (fuel : Nat), (∀ y ∈ pre, ¬ Lists y n g) →
    byXref env (fuel + pre.length) n g (pre ++ post) s = byXref env fuel n g post s := by
  intro pre
  induction pre with
  | nil => intro fuel _; rfl
  | cons y pre ih =>
    intro fuel h
    rw [List.length_cons, ← Nat.add_assoc, List.cons_append, byXref]
    split
    · exact ih fuel (fun z hz => h z (List.mem_cons_of_mem _ hz))
    · rename_i e he
      have : ¬ e.gen = g := fun hg => h y List.mem_cons_self ⟨e, he, hg⟩
      rw [if_neg this]
      exact ih fuel (fun z hz => h z (List.mem_cons_of_mem _ hz))

theorem St.note_new {s : St} {k : Key} {v : Obj} (h : regGet s.reg k = none) : s.note k v = s.put k v := by
  unfold St.note; rw [h]

/-- Resolution through the newest section which lists the object. -/
theorem locate_listed (env : Env) (pre post : List XRef) (x : XRef) (n g : Nat) (e : XEntry) (o w : Obj) (t rest : Bytes) (s : St)
    (hx : env.xrefs = pre ++ x :: post) (hpre : ∀ y ∈ pre, ¬ Lists y n g) (he : natGet x.inUse n = some e) (hg : e.gen = g)
    (ht : IndText n g o t) (hd : env.file.drop e.offset = t ++ rest) (hdec : env.dec n g o = .ok w) (hw : isObjStm w = false)
    (hnew : regGet s.reg (n, g) = none) (fuel : Nat) (hfuel : pre.length + 4 ≤ fuel) :
    locate env fuel n g s = (.ok w, s.put (n, g) w) := by
  obtain ⟨f, rfl⟩ : ∃ f, fuel = (f + 3 + pre.length) + 1 := ⟨fuel - 4 - pre.length, by omega⟩
  rw [locate, hnew, hx]
  dsimp only
  rw [byXref_skip _ _ _ _ _ _ _ hpre, byXref, he]
  dsimp only
  rw [if_pos hg, objectAt_text env f e.offset n g o w t rest s ht hd hdec hw]
  dsimp only
  rw [St.note_new hnew, regGet_put]
  dsimp only
  rw [show f + 3 + pre.length = (f + 2 + pre.length) + 1 by omega, bruteForce, regGet_put]

theorem byXref_unlisted (env : Env) (n g : Nat) (s : St) (xs : List XRef) (fuel : Nat) (h : ∀ y ∈ xs, ¬ Lists y n g) :
    byXref env (fuel + 1 + xs.length) n g xs s = (.ok (regGet s.reg (n, g)), s) := by
  have := byXref_skip env n g s [] xs (fuel + 1) h
  rw [List.append_nil] at this
  rw [this, byXref]

/-! ### Scanning -/

/-- What stands after the body: something that starts no element, e.g. `xref`. -/
def BodyEnd (x : Bytes) : Prop := NotStart SepChar x ∧ NotStart (fun c => Digit c ∨ c = 115 ∨ c = 116) x

theorem bodyElement_end (env : Env) (fuel off : Nat) (s : St) (x : Bytes) (hd : env.file.drop off = x) (hx : BodyEnd x) :
    bodyElement env (fuel + 1) off s = (.error .parser, s) := by
  rw [bodyElement, hd]
  cases x with
  | nil => rfl
  | cons c r =>
    have h := hx.2 c r rfl
    dsimp only
    rw [if_neg (fun hc => h (Or.inl ((digit_iff c).mpr hc))), if_neg (fun hc => h (Or.inr (Or.inl hc))),
      if_neg (fun hc => h (Or.inr (Or.inr hc)))]

theorem ind_head {n g : Nat} {o : Obj} {t : Bytes} (h : IndText n g o t) : ∃ c t', t = c :: t' ∧ isDigit c = true := by
  cases h with
  | mk ns gs s₁ s₂ s₃ s₄ _ t hn =>
    obtain ⟨c, t', rfl, hc⟩ := digits_head hn
    exact ⟨c, _, rfl, hc⟩

theorem drop_of_append {file a b : Bytes} (h : file = a ++ b) : file.drop (file.length - b.length) = b := by
  subst h
  simp

theorem bruteLoop_object (env : Env) (fuel b n g : Nat) (o w : Obj) (sep t x p : Bytes) (s : St) (hf : env.file = p ++ (sep ++ (t ++ x)))
    (hb : b = p.length) (hs : Sep sep) (ht : IndText n g o t) (hdec : env.dec n g o = .ok w) (hw : isObjStm w = false) :
    bruteLoop env (fuel + 4) [b] none b s = (.ok (env.file.length - x.length), s.note (n, g) w) := by
  obtain ⟨c, t', hc, hdig⟩ := ind_head ht
  obtain ⟨hws, h37, _⟩ := digit_not_ws c hdig
  have hdrop : env.file.drop b = sep ++ (t ++ x) := by rw [hf, hb]; simp
  have hsk : skipSC false (env.file.drop b) = .ok (t ++ x) := by
    rw [hdrop, skipSC_sep hs]
    rw [hc]; exact notSep_byte hws h37
  have hd2 : env.file.drop (env.file.length - (t ++ x).length) = t ++ x :=
    drop_of_append (a := p ++ sep) (by rw [hf]; simp)
  rw [bruteLoop, hsk]
  dsimp only
  have hbe : bodyElement env (fuel + 3) (env.file.length - (t ++ x).length) s = (.ok (env.file.length - x.length), s.note (n, g) w) := by
    have ho := objectAt_text env fuel _ n g o w t x s ht hd2 hdec hw
    generalize env.file.length - (t ++ x).length = off at hd2 ho ⊢
    rw [bodyElement, hd2, hc, List.cons_append]
    dsimp only
    rw [if_pos hdig]
    exact ho
  rw [hbe]
  dsimp only
  rw [bruteLoop]
  rfl

theorem bruteLoop_end (env : Env) (fuel b : Nat) (sep x p : Bytes) (s : St) (hf : env.file = p ++ (sep ++ x)) (hb : b = p.length)
    (hs : Sep sep) (hx : BodyEnd x) : bruteLoop env (fuel + 2) [b] none b s = (.error .parser, s) := by
  have hsk : skipSC false (env.file.drop b) = .ok x := by
    rw [show env.file.drop b = sep ++ x by rw [hf, hb]; simp, skipSC_sep hs hx.1]
  have hd2 : env.file.drop (env.file.length - x.length) = x := drop_of_append (a := p ++ sep) (by rw [hf]; simp)
  rw [bruteLoop, hsk]
  dsimp only
  rw [bodyElement_end env _ _ _ x hd2 hx]

/-- The first definition of `k`. -/
def firstDef (es : List (Nat × Nat × Obj)) (k : Key) : Option Obj :=
  (es.find? (fun e => (e.1, e.2.1) == k)).map (·.2.2)

theorem firstDef_cons (n g : Nat) (o : Obj) (es : List (Nat × Nat × Obj)) (k : Key) :
    firstDef ((n, g, o) :: es) k = if (n, g) = k then some o else firstDef es k := by
  unfold firstDef
  rw [List.find?_cons]
  split
  · rename_i h
    rw [if_pos (by simpa using h)]
    rfl
  · rename_i h
    rw [if_neg (by simpa using h)]

theorem regGet_note (s : St) (k k' : Key) (v : Obj) :
    regGet (s.note k v).reg k' = match regGet s.reg k' with | some u => some u | none => if k = k' then some v else none := by
  unfold St.note
  split
  · rename_i u hu
    split
    · rename_i h; exact h
    · rename_i h
      rw [h, if_neg]
      intro e; subst e; rw [hu] at h; cases h
  · rename_i hu
    unfold St.put
    simp only [regGet]
    split
    · rename_i e; subst e; rw [hu]
    · rename_i e
      split
      · rename_i h; rw [h]
      · rename_i h; rw [h]

theorem note_stack (s : St) (k : Key) (v : Obj) : (s.note k v).stack = s.stack := by
  unfold St.note; split <;> rfl

/-- Scanning a well-formed body finds the first definition, or null when there is none. -/
theorem bruteForce_scan (env : Env) (hdec : ∀ n g v, env.dec n g v = .ok v) (n g : Nat) (tail : Bytes) (hx : BodyEnd tail) :
    ∀ (es : List (Nat × Nat × Obj)) (body p : Bytes) (s : St), BodyText es body → env.file = p ++ (body ++ tail) → s.bf = p.length →
    (∀ e ∈ es, isObjStm e.2.2 = false) → (n, g) ∉ s.stack → regGet s.reg (n, g) = none →
    ∀ fuel, es.length + 6 ≤ fuel →
    (bruteForce env fuel n g s).1 = .ok ((firstDef es (n, g)).getD .null) := by
  intro es
  induction es with
  | nil =>
    intro body p s hb hf hs _ hst hr fuel hfuel
    obtain ⟨f, rfl⟩ : ∃ f, fuel = f + 3 := ⟨fuel - 3, by omega⟩
    cases hb with
    | nil _ hsep =>
      rw [bruteForce, hr]
      dsimp only
      rw [if_neg hst]
      rw [bruteLoop_end env f s.bf body tail p _ hf hs hsep hx]
      dsimp only
      rw [hr]
      rfl
  | cons e es ih =>
    intro body p s hb hf hs hos hst hr fuel hfuel
    obtain ⟨f, rfl⟩ : ∃ f, fuel = f + 5 := ⟨fuel - 5, by simp at hfuel; omega⟩
    cases hb with
    | cons m h o _ sep t u hsep ht hu =>
      rw [bruteForce, hr]
      dsimp only
      rw [if_neg hst]
      have hos' := hos _ List.mem_cons_self
      rw [bruteLoop_object env f s.bf m h o o sep t (u ++ tail) p _ (by rw [hf]; simp) hs hsep ht (hdec _ _ _) hos']
      dsimp only
      rw [firstDef_cons]
      by_cases hk : (m, h) = (n, g)
      · rw [if_pos hk, bruteForce]
        have := regGet_note { s with stack := (n, g) :: s.stack } (m, h) (n, g) o
        dsimp only at this
        rw [hr, if_pos hk] at this
        rw [this]
        rfl
      · rw [if_neg hk]
        refine ih u (p ++ (sep ++ t))
          { reg := (St.note { s with stack := (n, g) :: s.stack } (m, h) o).reg, bf := env.file.length - (u ++ tail).length, stack := s.stack }
          hu (by rw [hf]; simp) ?_ (fun e he => hos e (List.mem_cons_of_mem _ he)) hst ?_ (f + 4) (by simp at hfuel; omega)
        · dsimp only
          rw [hf]; simp; omega
        · have := regGet_note { s with stack := (n, g) :: s.stack } (m, h) (n, g) o
          dsimp only at this ⊢
          rw [hr, if_neg hk] at this
          exact this

/-! ### Object streams -/

theorem den_plain {refs : Bool} {o : Obj} {t : Bytes} (h : Den refs (.obj o) t) : isObjStm o = false ∧ isValue o = true := by
  cases h <;> exact ⟨rfl, rfl⟩

theorem objStmInts_text (x : Bytes) (hx : Stop x) : ∀ (ms : List (Nat × Nat)) (u : Bytes), DirText ms u →
    ∃ ks, objStmInts (2 * ms.length) (u ++ x) = .ok ks ∧ pairs ks = ms := by
  intro ms
  induction ms with
  | nil =>
    intro u h
    exact ⟨[], by rw [List.length_nil, Nat.mul_zero, objStmInts], rfl⟩
  | cons m ms ih =>
    intro u h
    cases h with
    | cons s ns s₁ os _ v hs hn h1 h1' ho hstop hv =>
      obtain ⟨ks, h2, h3⟩ := ih v hv
      refine ⟨decVal ns :: decVal os :: ks, ?_, by simp [pairs, h3]⟩
      have hstop' : Stop (v ++ x) := notStart_append hstop hx
      rw [List.length_cons, show 2 * (ms.length + 1) = (2 * ms.length + 1) + 1 by omega]
      rw [show (s ++ (ns ++ (s₁ ++ (os ++ v)))) ++ x = s ++ (ns ++ (s₁ ++ (os ++ (v ++ x)))) by simp]
      rw [objStmInts, skipSC_sep hs (digits_notSep hn)]
      dsimp only
      rw [nonNegInt_digits hn (stop_digit (sep_stop h1 h1')) (stop_dot (sep_stop h1 h1'))]
      dsimp only
      rw [objStmInts, skipSC_sep h1 (digits_notSep ho)]
      dsimp only
      rw [nonNegInt_digits ho (stop_digit hstop') (stop_dot hstop')]
      dsimp only
      rw [h2]

theorem member_text {data : Bytes} {first off : Nat} {o : Obj} (h : ObjectAt data (first + off) o) :
    member data (.int first) off = .ok o := by
  obtain ⟨s₀, t, s, r, hd, hs0, ht, hf⟩ := h
  unfold member memberPos
  have e : ((first : Int) + (off : Int)).toNat = first + off := by omega
  dsimp only
  rw [if_neg (by omega)]
  dsimp only
  rw [e, hd, parse_den fileCfg fileCfg_noDiv ht hs0 hf]
  dsimp only
  rw [if_pos (den_plain ht).2]

/-- The first member with a number. -/
def firstMember (ms : List (Nat × Obj)) (n : Nat) : Option Obj := (ms.find? (fun m => m.1 == n)).map (·.2)

theorem registerAll_text (env : Env) (data : Bytes) (first : Nat) : ∀ (ms : List (Nat × Nat)) (os : List Obj) (s : St) (fuel : Nat),
    ms.length = os.length → (∀ p ∈ ms.zip os, ObjectAt data (first + p.1.2) p.2) → ms.length + 2 ≤ fuel →
    ∃ s', registerAll env fuel data (.int first) ms s = (.ok (), s') ∧ s'.bf = s.bf ∧ s'.stack = s.stack ∧
      ∀ k, regGet s'.reg k = match regGet s.reg k with
        | some v => some v
        | none => if k.2 = 0 then firstMember ((ms.map (·.1)).zip os) k.1 else none := by
  intro ms
  induction ms with
  | nil =>
    intro os s fuel hl _ hfuel
    obtain ⟨f, rfl⟩ : ∃ f, fuel = f + 1 := ⟨fuel - 1, by omega⟩
    refine ⟨s, by rw [registerAll], rfl, rfl, fun k => ?_⟩
    split
    · rename_i h; exact h
    · rename_i h; rw [h]; simp [firstMember]
  | cons m ms ih =>
    intro os s fuel hl hm hfuel
    obtain ⟨num, off⟩ := m
    cases os with
    | nil => cases hl
    | cons o os =>
      obtain ⟨f, rfl⟩ : ∃ f, fuel = f + 2 := ⟨fuel - 2, by omega⟩
      have hmem := hm ((num, off), o) (by simp)
      have hplain : isObjStm o = false := by
        obtain ⟨_, _, _, _, _, _, ht, _⟩ := hmem
        exact (den_plain ht).1
      obtain ⟨s', h1, h2, h3, h4⟩ := ih os (s.note (num, 0) o) (f + 1) (by simpa using hl)
        (fun p hp => hm p (by simp [hp])) (by simp at hfuel; omega)
      refine ⟨s', ?_, ?_, ?_, ?_⟩
      · rw [registerAll, member_text hmem]
        dsimp only
        rw [register_plain _ _ _ _ _ _ hplain]
        dsimp only
        exact h1
      · rw [h2]; unfold St.note; split <;> rfl
      · rw [h3, note_stack]
      · intro k
        rw [h4, regGet_note]
        cases hk : regGet s.reg k with
        | some v => rfl
        | none =>
          dsimp only
          obtain ⟨k1, k2⟩ := k
          by_cases hk2 : k2 = 0
          · subst hk2
            by_cases hn : num = k1
            · subst hn
              simp [firstMember]
            · simp [firstMember, hn]
          · have hne : ¬ ((num, 0) = (k1, k2)) := by intro h; cases h; exact hk2 rfl
            simp [hne, hk2]

end PdfReader
