/-
  Content streams: pdfreader/parsers/content.py (ContentParser.objects), types/content.py (Operator).
-/
import Verif.Model.Parser

namespace PdfReader

/-- What `ContentParser.objects` yields: an `Operator` (types/content.py:76-90) or an `InlineImage`. -/
inductive Content where
  | op (name : Bytes) (args : List Obj)
  | image (d : List (Bytes × Obj)) (data : Bytes)
  deriving DecidableEq

/-- `is_operator`, content.py:42-56, for a token (never empty). -/
def isOperatorTok (t : Bytes) : Bool :=
  match t with
  | [] => false
  | c :: _ => !(b!"/01234567890+-.<[(").contains c

/-- `maybe_spaces_or_comments` and then `k` on the rest; an exception ends the generator. -/
def afterBlanks (r : Bytes) (k : Bytes → List Content × Option Exc) : List Content × Option Exc :=
  match skipSC false r with
  | .error e => ([], some e)
  | .ok r' => k r'

/-- One more yielded item. -/
def yielded (c : Content) (q : List Content × Option Exc) : List Content × Option Exc := (c :: q.1, q.2)

/-- Loop of `ContentParser.objects`, content.py:25-40: the items yielded, and the exception which ends
the iteration, if any. `fuel` bounds the number of iterations; `inp.length + 1` is always enough
(`C58_objects_terminates`). -/
def contentLoop : Nat → List Obj → Bytes → List Content × Option Exc
  | 0, _, _ => ([], some .diverges)
  | fuel + 1, ops, inp =>
    if inp = [] then ([], none)
    else
      match parseObject contentCfg inp with
      | .error e => ([], some e)
      | .ok (.image d data, r) => yielded (.image d data) (afterBlanks r (contentLoop fuel []))
      | .ok (.token t, r) =>
        if isOperatorTok t then yielded (.op t ops) (afterBlanks r (contentLoop fuel []))
        else afterBlanks r (contentLoop fuel (ops ++ [.token t]))
      | .ok (o, r) => afterBlanks r (contentLoop fuel (ops ++ [o]))

/-- `ContentParser.objects`, content.py:21-40. -/
def contentObjects (inp : Bytes) : List Content × Option Exc :=
  afterBlanks inp (contentLoop (inp.length + 1) [])

end PdfReader
