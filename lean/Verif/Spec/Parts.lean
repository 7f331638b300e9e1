/-
  The content of a page in several streams (ISO 32000-1, 7.7.3.3 and 7.8.2): the division is only at the boundaries between lexical tokens.
-/
import Verif.Spec.Content
import Verif.Spec.Viewer

namespace PdfReader.Spec

/-- What follows a token in the same stream, and ends it: white space or a delimiter. -/
def Ended (s : Bytes) : Prop := ∃ c t, s = c :: t ∧ ¬ Regular c

/-- `PartText ops cs ops' t`: when the operands `ops` have been read already, `t` is a text of the commands `cs` and, after them, of operands, so that
the operands `ops'` are left to an operator in another stream. Each token ends in `t`. As in `ContentText`, a dictionary must not be followed by an operator
in `s`; here its operator is in the same stream, or there are other operands after it. -/
inductive PartText : List Obj → List Content → List Obj → Bytes → Prop
  | done (ops : List Obj) (s : Bytes) : Sep s → PartText ops [] ops s
  | last (ops : List Obj) (s : Bytes) (o : Obj) (t s' : Bytes) : Sep s → Den false (.obj o) t → Sep s' → (needsStop o = true → Ended s') →
      (∀ d, o ≠ .dict d) → PartText ops [] (ops ++ [o]) (s ++ (t ++ s'))
  | operand (ops : List Obj) (cs : List Content) (ops' : List Obj) (s : Bytes) (o : Obj) (t s' : Bytes) (c : Byte) (r : Bytes) : Sep s →
      Den false (.obj o) t → Sep s' → ¬ SepChar c → (needsStop o = true → Ended (s' ++ c :: r)) → ((∃ d, o = .dict d) → c ≠ 115) →
      PartText (ops ++ [o]) cs ops' (s' ++ c :: r) → PartText ops cs ops' (s ++ (t ++ (s' ++ c :: r)))
  | op (ops : List Obj) (cs : List Content) (ops' : List Obj) (s t u : Bytes) : Sep s → OpText t → Ended u →
      PartText [] cs ops' u → PartText ops (.op t ops :: cs) ops' (s ++ (t ++ u))
  | image (ops : List Obj) (cs : List Content) (ops' : List Obj) (s : Bytes) (d : List (Bytes × Obj)) (data t u : Bytes) : Sep s → ImgText d data t →
      PartText [] cs ops' u → PartText ops (.image d data :: cs) ops' (s ++ (b!"BI" ++ (t ++ u)))

/-- `PartsText ops cs ts`: the streams `ts` together are a text of the commands `cs`, after the operands `ops`. -/
inductive PartsText : List Obj → List Content → List Bytes → Prop
  | nil (ops : List Obj) : PartsText ops [] []
  | last (ops : List Obj) (cs : List Content) (t : Bytes) : ContentText ops cs t → PartsText ops cs [t]
  | cons (ops ops' : List Obj) (cs ds : List Content) (t : Bytes) (ts : List Bytes) : PartText ops cs ops' t → PartsText ops' ds ts →
      PartsText ops (cs ++ ds) (t :: ts)

/-- Streams and their data. -/
inductive DataAre (h : Host) : List Val → List Bytes → Prop
  | nil : DataAre h [] []
  | cons (cls : Bytes) (es : List (Bytes × Obj)) (d s : Bytes) (vs : List Val) (ss : List Bytes) : h.data (.stream cls es d) = .ok s → DataAre h vs ss →
      DataAre h (.stream cls es d :: vs) (s :: ss)

end PdfReader.Spec
