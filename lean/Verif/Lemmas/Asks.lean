/-
  What a parse asks for does not depend on answers it did not ask for.
-/
import Verif.Lemmas.Termination

namespace PdfReader
open Spec

/-- `y` is `x` computed with more answers: `x` unless it asked for something which is answered in `known`. -/
def AskEq {α : Type} (known : List (Key × Obj)) (x y : Res α) : Prop :=
  (∃ n g v, x = .error (.need n g) ∧ regGet known (n, g) = some v) ∨ y = x

theorem AskEq.refl {α : Type} (known : List (Key × Obj)) (x : Res α) : AskEq known x x := Or.inr rfl

theorem AskEq.stop {α : Type} {known : List (Key × Obj)} {n g : Nat} {v : Obj} (h : regGet known (n, g) = some v) (y : Res α) :
    AskEq known (.error (.need n g)) y := Or.inl ⟨n, g, v, rfl, h⟩

theorem streamP_ask (known : List (Key × Obj)) (d : List (Bytes × Obj)) (inp : Bytes) :
    AskEq known (streamP (askCfg []) d inp) (streamP (askCfg known) d inp) := by
  unfold streamP
  split
  · exact .refl _ _
  · rename_i n g _
    dsimp only [askCfg, regGet]
    cases h : regGet known (n, g) with
    | none => exact .refl _ _
    | some v => exact .stop h _
  · exact .refl _ _

theorem dictOrHex_ask {known : List (Key × Obj)} {D D' : Bytes → PRes (List (Bytes × Obj))} (h : ∀ i, AskEq known (D i) (D' i))
    (r : Bytes) : AskEq known (dictOrHex (askCfg []) D r) (dictOrHex (askCfg known) D' r) := by
  unfold dictOrHex
  split
  · exact .refl _ _
  split
  · split
    · exact .refl _ _
    · rename_i r2 _
      rcases h r2 with ⟨n, g, v, h, hk⟩ | h
      · rw [h]; exact .stop hk _
      · rw [h]
        split
        · exact .refl _ _
        · split
          · exact .refl _ _
          · split
            · exact streamP_ask known _ _
            · exact .refl _ _
  · exact .refl _ _

theorem arrayP_ask {known : List (Key × Obj)} {A A' : Bytes → PRes (List Obj)} (h : ∀ i, AskEq known (A i) (A' i))
    (r : Bytes) : AskEq known (arrayP A r) (arrayP A' r) := by
  unfold arrayP
  split
  · exact .refl _ _
  · rename_i r2 _
    rcases h r2 with ⟨n, g, v, h, hk⟩ | h
    · rw [h]; exact .stop hk _
    · rw [h]; exact .refl _ _

theorem AskEq.ite {α : Type} {known : List (Key × Obj)} {c : Prop} [Decidable c] {a a' b b' : Res α} (h1 : AskEq known a a')
    (h2 : AskEq known b b') : AskEq known (if c then a else b) (if c then a' else b') := by
  by_cases h : c
  · rw [if_pos h, if_pos h]; exact h1
  · rw [if_neg h, if_neg h]; exact h2

theorem objBody_ask {known : List (Key × Obj)} {D D' A A' I} (hD : ∀ i, AskEq known (D i) (D' i)) (hA : ∀ i, AskEq known (A i) (A' i)) (c r) :
    AskEq known (objBody (askCfg []) D A I c r) (objBody (askCfg known) D' A' I c r) := by
  unfold objBody
  refine .ite (.refl _ _) (.ite (dictOrHex_ask hD r) (.ite (arrayP_ask hA r) (.ite (.refl _ _) (.ite (.refl _ _)
    (.ite (.refl _ _) (.ite (.refl _ _) (.ite (.refl _ _) (.ite (.refl _ _) (.ite (.refl _ _)
    (.refl _ _))))))))))

theorem ask_mono (known : List (Key × Obj)) (fuel : Nat) :
    (∀ inp, AskEq known (objectP (askCfg []) fuel inp) (objectP (askCfg known) fuel inp)) ∧
    (∀ inp, AskEq known (arrLoop (askCfg []) fuel inp) (arrLoop (askCfg known) fuel inp)) ∧
    (∀ acc inp, AskEq known (dictLoop (askCfg []) fuel acc inp) (dictLoop (askCfg known) fuel acc inp)) := by
  induction fuel with
  | zero =>
    refine ⟨?_, ?_, ?_⟩ <;> intros <;> exact Or.inr rfl
  | succ fuel ih =>
    obtain ⟨ihO, ihA, ihD⟩ := ih
    refine ⟨?_, ?_, ?_⟩
    · intro inp
      rw [objectP, objectP]
      split
      · exact .refl _ _
      · exact .refl _ _
      · exact objBody_ask (ihD []) ihA _ _
    · intro inp
      rw [arrLoop, arrLoop]
      split
      · exact .refl _ _
      · rcases ihO inp with ⟨n, g, v, h, hk⟩ | h
        · rw [h]; exact .stop hk _
        · rw [h]
          split
          · exact .refl _ _
          · split
            · exact .refl _ _
            · rename_i r1 _
              rcases ihA r1 with ⟨n, g, v, h, hk⟩ | h
              · rw [h]; exact .stop hk _
              · rw [h]; exact .refl _ _
    · intro acc inp
      rw [dictLoop, dictLoop]
      split
      · exact .refl _ _
      · split
        · exact .refl _ _
        · split
          · exact .refl _ _
          · rename_i r1 _
            rcases ihO r1 with ⟨n, g, v, h, hk⟩ | h
            · rw [h]; exact .stop hk _
            · rw [h]
              split
              · exact .refl _ _
              · split
                · exact .refl _ _
                · exact ihD _ _

/-- More answers change a parse only where it asked. -/
theorem indirect_ask (known : List (Key × Obj)) (inp : Bytes) :
    AskEq known (indirectObject (askCfg []) inp) (indirectObject (askCfg known) inp) := by
  unfold indirectObject
  split
  · exact .refl _ _
  · rename_i r _
    unfold parseObject
    rcases (ask_mono known (fuelFor r)).1 r with ⟨n, g, v, h, hk⟩ | h
    · rw [h]; exact .stop hk _
    · rw [h]; exact .refl _ _

/-- A parse which asks for nothing yields the same whatever is known. -/
theorem ask_stable {inp : Bytes} (h : ∀ n g, indirectObject (askCfg []) inp ≠ .error (.need n g)) (known : List (Key × Obj)) :
    indirectObject (askCfg known) inp = indirectObject (askCfg []) inp := by
  rcases indirect_ask known inp with ⟨n, g, v, h', _⟩ | h'
  · exact absurd h' (h n g)
  · exact h'

/-- A dictionary which asks for nothing, and what follows it. -/
theorem dict_parse {r r1 r2 : Bytes} {d : List (Bytes × Obj)} (h1 : skipSC false r = .ok r1)
    (hd : dictLoop (askCfg []) (4 * r.length + 11) [] r1 = .ok (d, r2)) (known : List (Key × Obj)) :
    parseObject (askCfg known) (60 :: 60 :: r) = (match skipSC false r2 with
          | .error e => .error e
          | .ok r4 => if r4.head? = some 115 then streamP (askCfg known) d r4 else .ok (.dict d, r4)) := by
  have hd' : dictLoop (askCfg known) (4 * r.length + 11) [] r1 = .ok (d, r2) := by
    rcases (ask_mono known (4 * r.length + 11)).2.2 [] r1 with ⟨n, g, v, h', _⟩ | h'
    · rw [hd] at h'; cases h'
    · rw [h', hd]
  unfold parseObject
  rw [show fuelFor (60 :: 60 :: r) = (4 * r.length + 11) + 1 by unfold fuelFor; simp only [List.length_cons]; omega, objectP]
  rw [show skipSC false (60 :: 60 :: r) = .ok (60 :: 60 :: r) by rw [skipSC]; rfl]
  dsimp only
  unfold objBody
  rw [if_neg (fun h => by have := h.2; revert this; decide), if_pos rfl]
  unfold dictOrHex
  dsimp only
  rw [if_pos rfl, h1]
  dsimp only
  rw [hd']
  dsimp only
  generalize skipSC false r2 = q
  cases q <;> rfl

theorem streamBody_dict {d d' : List (Bytes × Obj)} {l : Obj} {inp raw r : Bytes} (h : streamBody d l inp = .ok (.stream d' raw, r)) : d' = d := by
  unfold streamBody at h
  dsimp only at h
  split at h
  · cases h
  split at h
  · cases h
  split at h
  · cases h
  repeat' split at h
  all_goals first | (cases h; rfl) | (cases h; done) | skip

/-- The dictionary of a stream object is the parsed one, but for the Length. -/
theorem stream_dict {inp r r1 r2 r' raw : Bytes} {num gen n g : Nat} {d d' : List (Bytes × Obj)} (hh : objHeader inp = .ok ((num, gen), 60 :: 60 :: r))
    (h1 : skipSC false r = .ok r1) (hd : dictLoop (askCfg []) (4 * r.length + 11) [] r1 = .ok (d, r2)) (known : List (Key × Obj))
    (h : indirectObject (askCfg known) inp = .ok ((n, g, .stream d' raw), r')) : d' = d ∨ ∃ l, d' = dictSet d b!"Length" l := by
  unfold indirectObject at h
  rw [hh] at h
  dsimp only at h
  rw [dict_parse h1 hd known] at h
  have fin : ∀ (x : PRes Obj), (match x with
        | .error e => (.error e : PRes (Nat × Nat × Obj))
        | .ok (val, r1) =>
          match objTail val r1 with
          | .error e => .error e
          | .ok r2 => if isValue val then .ok ((num, gen, val), r2) else .error .assertion) = .ok ((n, g, .stream d' raw), r') →
        ∃ r'', x = .ok (.stream d' raw, r'') := by
    intro x hx
    cases x with
    | error e => cases hx
    | ok y =>
      obtain ⟨v, r⟩ := y
      dsimp only at hx
      split at hx
      · cases hx
      · split at hx <;> cases hx
        exact ⟨_, rfl⟩
  obtain ⟨r'', h2⟩ := fin _ h
  split at h2
  · cases h2
  · split at h2
    · unfold streamP at h2
      split at h2
      · cases h2
      · dsimp only [askCfg] at h2
        split at h2
        · cases h2
        · exact Or.inr ⟨_, streamBody_dict h2⟩
      · exact Or.inl (streamBody_dict h2)
    · cases h2

/-- An object which is a stream asks for its own Length at most, if its dictionary asks for nothing. -/
theorem stream_asks {inp r r1 r2 : Bytes} {num gen a b : Nat} {d : List (Bytes × Obj)} (hh : objHeader inp = .ok ((num, gen), 60 :: 60 :: r))
    (h1 : skipSC false r = .ok r1) (hd : dictLoop (askCfg []) (4 * r.length + 11) [] r1 = .ok (d, r2))
    (hl : dictGet d b!"Length" = some (.ref a b)) (known : List (Key × Obj)) {n g : Nat}
    (h : indirectObject (askCfg known) inp = .error (.need n g)) : (n, g) = (a, b) := by
  unfold indirectObject at h
  rw [hh] at h
  dsimp only at h
  rw [dict_parse h1 hd known] at h
  cases e : skipSC false r2 with
  | error er =>
    rw [e] at h
    cases h
    have := skipSC_err e
    cases this
  | ok r4 =>
    rw [e] at h
    dsimp only at h
    have fin : ∀ (x : PRes Obj), (match x with
        | .error e => (.error e : PRes (Nat × Nat × Obj))
        | .ok (val, r1) =>
          match objTail val r1 with
          | .error e => .error e
          | .ok r2 => if isValue val then .ok ((num, gen, val), r2) else .error .assertion) = .error (.need n g) → x = .error (.need n g) := by
      intro x hx
      cases x with
      | error e => cases hx; rfl
      | ok y =>
        obtain ⟨v, r⟩ := y
        dsimp only at hx
        split at hx
        · rename_i e' he'
          cases hx
          rcases objTail_err he' with h | h <;> cases h
        · split at hx <;> cases hx
    have h2 := fin _ h
    split at h2
    · unfold streamP at h2
      rw [hl] at h2
      dsimp only [askCfg] at h2
      cases hk : regGet known (a, b) with
      | none => rw [hk] at h2; cases h2; rfl
      | some l =>
        rw [hk] at h2
        rcases dropErr (streamBody_good _ _ _) h2 with h | h <;> cases h
    · cases h2

/-- Whether a parse without answers asks for something. -/
def asksNothing (inp : Bytes) : Bool :=
  match indirectObject (askCfg []) inp with
  | .error (.need _ _) => false
  | _ => true

theorem asksNothing_ok {inp : Bytes} (h : asksNothing inp = true) (n g : Nat) : indirectObject (askCfg []) inp ≠ .error (.need n g) := by
  intro h2
  unfold asksNothing at h
  rw [h2] at h
  cases h

end PdfReader
