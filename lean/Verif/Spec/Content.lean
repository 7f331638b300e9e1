/-
  Specification of content streams (ISO 32000-1, 7.8.2 and 8.9.7): operand lists followed by operators,
  and inline images.
-/
import Verif.Spec.Grammar
import Verif.Model.Content

namespace PdfReader.Spec

/-- Operator names: regular characters, not starting like a number, and not one of the words with
another meaning. -/
def OpText (t : Bytes) : Prop :=
  t ≠ [] ∧ (∀ c ∈ t, Regular c) ∧ NotStart (fun c => Digit c ∨ c = 43 ∨ c = 45 ∨ c = 46) t ∧
  t ∉ ([b!"null", b!"true", b!"false", b!"BI"] : List Bytes)

/-- Entries of an inline image and the closing `ID`. -/
inductive ImgEnts : List (Bytes × Obj) → Bytes → Prop
  | done (s : Bytes) : Sep s → ImgEnts [] (s ++ b!"ID")
  | cons (s k kt s₁ : Bytes) (v : Obj) (t : Bytes) (es : List (Bytes × Obj)) (u : Bytes) : Sep s →
      NameText k kt → Sep s₁ → Stop (s₁ ++ t) → Den false (.obj v) t → (needsStop v = true → Stop u) →
      ImgEnts es u → ImgEnts ((k, v) :: es) (s ++ 47 :: (kt ++ (s₁ ++ (t ++ u))))

/-- Three characters which end the data of an inline image. -/
def ImgEnd (a b c : Byte) : Prop := (WS a ∧ b = 69 ∧ c = 73) ∨ (a = 69 ∧ b = 73 ∧ WS c)

/-- `ImgText d data t`: `t` is an inline image after its `BI`. The data must not contain an end mark
before its own. -/
inductive ImgText : List (Bytes × Obj) → Bytes → Bytes → Prop
  | mk (raw : List (Bytes × Obj)) (u : Bytes) (w : Byte) (data : Bytes) (a b c : Byte) :
      ImgEnts raw u → Stop u → WS w → ImgEnd a b c →
      (∀ x a' b' c' y, data ++ [a, b, c] = x ++ a' :: b' :: c' :: y → ImgEnd a' b' c' → data.length ≤ x.length) →
      ImgText (dictOf raw) data (u ++ w :: (data ++ [a, b, c]))

/-- `ContentText ops cs t`: when the operands `ops` have been read already, `t` is a text of the
commands `cs`. Operands with no operator after them belong to no command. A dictionary operand must
not be followed by an operator in `s` (it would be taken for a stream, see
`C23_dict_operand_counterexample`). -/
inductive ContentText : List Obj → List Content → Bytes → Prop
  | done (ops : List Obj) (s : Bytes) : Sep s → ContentText ops [] s
  | operand (ops : List Obj) (cs : List Content) (s : Bytes) (o : Obj) (t s' r : Bytes) : Sep s →
      Den false (.obj o) t → Sep s' → NotStart SepChar r → (needsStop o = true → Stop (s' ++ r)) →
      ((∃ d, o = .dict d) → NotStart (· = 115) r) → ContentText (ops ++ [o]) cs (s' ++ r) →
      ContentText ops cs (s ++ (t ++ (s' ++ r)))
  | op (ops : List Obj) (cs : List Content) (s t u : Bytes) : Sep s → OpText t → Stop u →
      ContentText [] cs u → ContentText ops (.op t ops :: cs) (s ++ (t ++ u))
  | image (ops : List Obj) (cs : List Content) (s d data t u) : Sep s → ImgText d data t →
      ContentText [] cs u → ContentText ops (.image d data :: cs) (s ++ (b!"BI" ++ (t ++ u)))

end PdfReader.Spec
