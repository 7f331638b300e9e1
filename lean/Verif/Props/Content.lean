/-
  C23, C24, C58, C59: content streams. Specification: Verif/Spec/Content.lean.
-/
import Verif.Lemmas.Content

namespace PdfReader
open Spec

/-! ### C23 -/

/-- C23: a content stream written as any sequence of operand lists, operators and inline images, with any
separators and comments, yields exactly these commands in order, with their operands in order, and
ends without an exception. -/
theorem C23_commands (cs : List Content) (t : Bytes) (h : ContentText [] cs t) :
    contentObjects t = (cs, none) := by
  obtain ⟨r0, h1, h2⟩ := content_text h
  unfold contentObjects afterBlanks
  rw [h1]
  exact h2 _ (Nat.lt_succ_of_le (skip_le h1))

/-- C23: operands which no operator follows are not delivered at all. -/
theorem C23_trailing_operands (os : List Obj) (u : Bytes) (h : Den false (.items os) u)
    (hd : ∀ d, .dict d ∉ os) : contentObjects u = ([], none) := by
  apply C23_commands
  have key : ∀ (x : Syn) (u : Bytes), Den false x u → ∀ os, x = .items os → (∀ d, .dict d ∉ os) → ∀ ops, ContentText ops [] u := by
    intro x u h
    induction h with
    | itemsNil s hs => intro os _ _ ops; exact .done ops s hs
    | itemsCons s o t os u hs ho hst hu _ ih =>
      intro os' e hd ops
      cases e
      obtain ⟨s', r, e, hs', hr⟩ := contentText_skip (ih os rfl (fun d hm => hd d (by simp [hm])) (ops ++ [o]))
      subst e
      exact .operand ops [] s o t s' r hs ho hs' hr hst (by rintro ⟨d, rfl⟩; exact absurd (by simp) (hd d))
        (ih os rfl (fun d hm => hd d (by simp [hm])) (ops ++ [o]))
    | _ => intro os e; cases e
  exact key _ u h os rfl hd []

/-- `BT /F1 12 Tf (a)Tj ET`: the hypotheses of C23 hold for a realistic stream. -/
theorem C23_example_text : ContentText [] [.op (b!"BT") [], .op (b!"Tf") [.name (b!"F1"), .int 12], .op (b!"Tj") [.str (b!"a")], .op (b!"ET") []]
    (b!"BT /F1 12 Tf (a)Tj ET") := by
  have opt : ∀ t : Bytes, t ∈ ([b!"BT", b!"Tf", b!"Tj", b!"ET"] : List Bytes) → OpText t := by
    intro t ht
    have : ∀ t ∈ ([b!"BT", b!"Tf", b!"Tj", b!"ET"] : List Bytes), t ≠ [] ∧ (∀ c ∈ t, isRegular c = true) ∧
      (t.head?.all (fun c => !(isDigit c) && c != 43 && c != 45 && c != 46)) = true ∧
      t ∉ ([b!"null", b!"true", b!"false", b!"BI"] : List Bytes) := by decide +kernel
    obtain ⟨h1, h2, h3, h4⟩ := this t ht
    refine ⟨h1, fun c hc => (regular_iff c).mpr (h2 c hc), ?_, h4⟩
    rintro c t' rfl
    simp only [List.head?_cons, Option.all_some, Bool.and_eq_true, bne_iff_ne, ne_eq, Bool.not_eq_true'] at h3
    rintro (h | h | h | h)
    · rw [digit_iff, h3.1.1.1] at h; cases h
    · exact h3.1.1.2 h
    · exact h3.1.2 h
    · exact h3.2 h
  have sp : Sep [32] := .ws 32 [] (by simp [WS]) .nil
  have st : ∀ {x : Bytes}, Stop (32 :: x) := fun {x} => notStart_mk (fun h => h.1 (by simp [WS]))
  have ns : ∀ {c : Byte} {x : Bytes}, isWs c = false → c ≠ 37 → NotStart SepChar (c :: x) := fun {c x} h1 h2 =>
    notStart_mk (by rintro (h | h); · rw [ws_iff, h1] at h; cases h
                    · exact h2 h)
  have f1 : Den false (.obj (.name (b!"F1"))) (b!"/F1") :=
    .name _ _ (.plain 70 _ _ ((regular_iff _).mpr rfl) (by decide) (.plain 49 _ _ ((regular_iff _).mpr rfl) (by decide) .nil))
  have i12 : Den false (.obj (.int 12)) (b!"12") :=
    .int 12 _ (.mk false [] (b!"12") (Or.inl ⟨rfl, Or.inl rfl⟩) ⟨by decide, by simp [Digit]⟩)
  have sa : Den false (.obj (.str (b!"a"))) (b!"(a)") :=
    .str (b!"a") (b!"a") (.plain 97 _ _ (by decide) (by decide) (by decide) (by decide) .nil)
  exact .op [] _ [] (b!"BT") _ .nil (opt _ (by decide)) st
    (.operand [] _ [32] _ (b!"/F1") [32] (b!"12 Tf (a)Tj ET") sp f1 sp (ns rfl (by decide)) (fun _ => st) (by rintro ⟨d, h⟩; cases h)
    (.operand _ _ [32] _ (b!"12") [32] (b!"Tf (a)Tj ET") sp i12 sp (ns rfl (by decide)) (fun _ => st) (by rintro ⟨d, h⟩; cases h)
    (.op _ _ [32] (b!"Tf") _ sp (opt _ (by decide)) st
    (.operand [] _ [32] _ (b!"(a)") [] (b!"Tj ET") sp sa .nil (ns rfl (by decide)) (fun h => by cases h) (by rintro ⟨d, h⟩; cases h)
    (.op _ _ [] (b!"Tj") _ .nil (opt _ (by decide)) st
    (.op _ _ [32] (b!"ET") [] sp (opt _ (by decide)) notStart_nil (.done _ _ .nil)))))))

example : contentObjects (b!"BT /F1 12 Tf (a)Tj ET") = ([.op (b!"BT") [], .op (b!"Tf") [.name (b!"F1"), .int 12], .op (b!"Tj") [.str (b!"a")], .op (b!"ET") []], none) :=
  C23_commands _ _ C23_example_text

/-- The exception in the specification of C23 is real: a dictionary operand followed by an operator in
`s` is taken for a stream. -/
theorem C23_dict_operand_counterexample :
    contentObjects (b!"q /P <</A 1>> sh Q") = ([.op (b!"q") []], some .keyError) := by decide +kernel

/-! ### C24 -/

/-- C24: an inline image yields its entries (the last value of a repeated key) and exactly its data, and the
parser continues right after the end mark, whatever follows, provided that the data contains no
end mark (white space `EI`, or `EI` white space) itself. -/
theorem C24_inline_image_partial (d : List (Bytes × Obj)) (data s t u : Bytes) (hs : Sep s) (h : ImgText d data t) :
    parseObject contentCfg (s ++ (b!"BI" ++ (t ++ u))) = .ok (.image d data, u) :=
  parse_image h hs

/-- C24 is false for data which contains an end mark: four bytes of data with ` EI` inside. -/
theorem C24_counterexample :
    contentObjects (b!"BI /W 1 /H 6 /BPC 8 ID a EIbc EI Q") =
      ([.image [(b!"W", .int 1), (b!"H", .int 6), (b!"BPC", .int 8)] (b!"a"), .op (b!"bc") [], .op (b!"EI") [], .op (b!"Q") []], none) := by
  decide +kernel

/-- Hypotheses of C24: `/W 1 ID abc EI`. -/
theorem C24_example_text : ImgText [(b!"W", .int 1)] (b!"aEb") (b!" /W 1 ID aEb EI") := by
  have sp : Sep [32] := .ws 32 [] (by simp [WS]) .nil
  have st : ∀ {x : Bytes}, Stop (32 :: x) := fun {x} => notStart_mk (fun h => h.1 (by simp [WS]))
  have i1 : Den false (.obj (.int 1)) (b!"1") :=
    .int 1 _ (.mk false [] (b!"1") (Or.inl ⟨rfl, Or.inl rfl⟩) ⟨by decide, by simp [Digit]⟩)
  have nW : NameText (b!"W") (b!"W") := .plain 87 [] [] ((regular_iff _).mpr rfl) (by decide) .nil
  have ed : dictOf [(b!"W", .int 1)] = [(b!"W", .int 1)] := by decide +kernel
  have hu : ImgEnts [(b!"W", .int 1)] (b!" /W 1 ID") :=
    .cons [32] (b!"W") (b!"W") [32] (.int 1) (b!"1") [] (b!" ID") sp nW sp st i1 (fun _ => st) (.done [32] sp)
  have h := ImgText.mk [(b!"W", .int 1)] (b!" /W 1 ID") 32 (b!"aEb") 32 69 73 hu st (by simp [WS])
    (Or.inl ⟨by simp [WS], rfl, rfl⟩) ?_
  · rw [ed] at h; exact h
  intro x a b c y e h
  rw [imgEnd_iff] at h
  match x with
  | [] => cases e; revert h; decide
  | [_] => cases e; revert h; decide
  | [_, _] => cases e; revert h; decide
  | _ :: _ :: _ :: _ => simp

example : parseObject contentCfg (b!"BI /W 1 ID aEb EI Q") = .ok (.image [(b!"W", .int 1)] (b!"aEb"), b!" Q") :=
  C24_inline_image_partial [(b!"W", .int 1)] (b!"aEb") [] (b!" /W 1 ID aEb EI") (b!" Q") .nil C24_example_text

/-! ### C58: termination of `objects` -/

theorem contentLoop_ne_div (f : Nat) : ∀ ops inp, inp.length < f → (contentLoop f ops inp).2 ≠ some .diverges := by
  induction f with
  | zero => intro ops inp h; omega
  | succ f ih =>
    intro ops inp h
    rw [contentLoop]
    split
    · simp
    · have blank : ∀ ops' o r, parseObject contentCfg inp = .ok (o, r) →
          (afterBlanks r (contentLoop f ops')).2 ≠ some .diverges := by
        intro ops' o r hp
        unfold afterBlanks
        split
        · rename_i e he; rw [skipSC_err he]; simp
        · rename_i r' hr'
          have := skip_le hr'
          have := parse_lt hp
          exact ih _ _ (by omega)
      split
      · rename_i e he
        intro h2
        cases h2
        exact objectP_noDiv contentCfg_noDiv (by unfold fuelFor; omega) he
      · rename_i he; exact blank _ _ _ he
      · rename_i he
        split
        · exact blank _ _ _ he
        · exact blank _ _ _ he
      · rename_i he; exact blank _ _ _ he

theorem contentLoop_fuel (f : Nat) : ∀ g ops inp, inp.length < f → inp.length < g →
    contentLoop f ops inp = contentLoop g ops inp := by
  induction f with
  | zero => intro g ops inp h; omega
  | succ f ih =>
    intro g ops inp h hg
    cases g with
    | zero => omega
    | succ g =>
      have blank : ∀ ops' o r, parseObject contentCfg inp = .ok (o, r) →
          afterBlanks r (contentLoop f ops') = afterBlanks r (contentLoop g ops') := by
        intro ops' o r hp
        unfold afterBlanks
        split
        · rfl
        · rename_i r' hr'
          have := skip_le hr'
          have := parse_lt hp
          exact ih g _ _ (by omega) (by omega)
      rw [contentLoop, contentLoop]
      split
      · rfl
      · split
        · rfl
        · rename_i he; rw [blank _ _ _ he]
        · rename_i he
          split
          · rw [blank _ _ _ he]
          · rw [blank _ _ _ he]
        · rename_i he; exact blank _ _ _ he

/-- C58: iterating over the objects of a content stream terminates on every input, after at most as many
iterations as the stream has bytes. -/
theorem C58_objects_terminates (inp : Bytes) :
    (contentObjects inp).2 ≠ some .diverges ∧
    (contentObjects inp).1.length ≤ inp.length ∧
    ∀ f, inp.length < f → afterBlanks inp (contentLoop f []) = contentObjects inp := by
  have hlen : ∀ f ops inp, (contentLoop f ops inp).1.length ≤ inp.length := by
    intro f
    induction f with
    | zero => intro ops inp; simp [contentLoop]
    | succ f ih =>
      intro ops inp
      rw [contentLoop]
      split
      · simp
      · have blank : ∀ ops' o r, parseObject contentCfg inp = .ok (o, r) →
            (afterBlanks r (contentLoop f ops')).1.length + 1 ≤ inp.length := by
          intro ops' o r hp
          have := parse_lt hp
          unfold afterBlanks
          split
          · simp; omega
          · rename_i r' hr'
            have := skip_le hr'
            have := ih ops' r'
            omega
        have blank' : ∀ ops' o r, parseObject contentCfg inp = .ok (o, r) →
            (afterBlanks r (contentLoop f ops')).1.length ≤ inp.length :=
          fun ops' o r hp => by have := blank ops' o r hp; omega
        split
        · simp
        · rename_i he; exact blank _ _ _ he
        · rename_i he
          split
          · exact blank _ _ _ he
          · exact blank' _ _ _ he
        · rename_i he; exact blank' _ _ _ he
  unfold contentObjects afterBlanks
  refine ⟨?_, ?_, ?_⟩
  · split
    · rename_i e he; rw [skipSC_err he]; simp
    · rename_i r hr
      have := skip_le hr
      exact contentLoop_ne_div _ _ _ (by omega)
  · split
    · simp
    · rename_i r hr
      exact Nat.le_trans (hlen _ _ _) (skip_le hr)
  · intro f hf
    split
    · rfl
    · rename_i r hr
      have := skip_le hr
      exact contentLoop_fuel _ _ _ _ (by omega) (by omega)

end PdfReader
