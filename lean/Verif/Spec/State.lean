/-
  The parameters of the graphics state which operators and graphics state dictionaries set.
-/
import Verif.Spec.Viewer

namespace PdfReader.Spec

/-- Operators with one operand and the parameters they set (ISO 32000-1, 8.4.4): line width, cap and join, miter limit, rendering intent. -/
def settersOfOne : List (Bytes × Bytes) := [(b!"w", b!"LW"), (b!"J", b!"LC"), (b!"j", b!"LJ"), (b!"M", b!"ML"), (b!"ri", b!"RI")]

/-- Operators whose operands together are the value: dash array and phase, font and size. -/
def settersOfAll : List (Bytes × Bytes) := [(b!"d", b!"D"), (b!"Tf", b!"Font")]

/-- The parameter `k` before and after a command `name` with operands. The matrix of cm is concatenated to the one in force; here only for the case that
there is none. -/
inductive Sets (k : Bytes) : Bytes → List Obj → Option Val → Option Val → Prop
  | one (name : Bytes) (x : Obj) (rest : List Obj) (old : Option Val) : (name, k) ∈ settersOfOne → Sets k name (x :: rest) old (some (.atom x))
  | all (name : Bytes) (args : List Obj) (old : Option Val) : (name, k) ∈ settersOfAll → Sets k name args old (some (.atom (.arr args)))
  | matrix (args : List Obj) : k = b!"CTM" → Sets k b!"cm" args none (some (.atom (.arr args)))

/-- The parameter `k` before and after gs with the operands: a dictionary among the resources sets what it has an entry for. -/
inductive GsSets (h : Host) (res : Resources) (k : Bytes) : List Obj → Option Val → Option Val → Prop
  | unknown (n : Bytes) (rest : List Obj) (old : Option Val) : resource res b!"ExtGState" n = none → GsSets h res k (.name n :: rest) old old
  | sets (n : Bytes) (rest : List Obj) (old : Option Val) (cls : Bytes) (es : List (Bytes × Obj)) (items : List (Bytes × Val)) (v : Val) :
      resource res b!"ExtGState" n = some (.dict cls es) → es ≠ [] → h.items es = .ok items → assoc k items = some v → v ≠ .atom .null →
      GsSets h res k (.name n :: rest) old (some v)
  | keeps (n : Bytes) (rest : List Obj) (old : Option Val) (cls : Bytes) (es : List (Bytes × Obj)) (items : List (Bytes × Val)) :
      resource res b!"ExtGState" n = some (.dict cls es) → h.items es = .ok items → assoc k items = none ∨ assoc k items = some (.atom .null) →
      GsSets h res k (.name n :: rest) old old

/-- `StateRun h res k xs cs ys`: the content `cs` takes the values `xs` of the parameter `k` in the states on the stack, the current one first, to `ys`.
A Q has its q. -/
inductive StateRun (h : Host) (res : Resources) (k : Bytes) : List (Option Val) → List Content → List (Option Val) → Prop
  | done (xs : List (Option Val)) : StateRun h res k xs [] xs
  | image (d : List (Bytes × Obj)) (data : Bytes) (xs ys : List (Option Val)) (cs : List Content) : StateRun h res k xs cs ys →
      StateRun h res k xs (.image d data :: cs) ys
  | save (args : List Obj) (x : Option Val) (xs ys : List (Option Val)) (cs : List Content) : StateRun h res k (x :: x :: xs) cs ys →
      StateRun h res k (x :: xs) (.op b!"q" args :: cs) ys
  | restore (args : List Obj) (x y : Option Val) (xs ys : List (Option Val)) (cs : List Content) : StateRun h res k (x :: xs) cs ys →
      StateRun h res k (y :: x :: xs) (.op b!"Q" args :: cs) ys
  | set (name : Bytes) (args : List Obj) (x y : Option Val) (xs ys : List (Option Val)) (cs : List Content) : Sets k name args x y →
      StateRun h res k (y :: xs) cs ys → StateRun h res k (x :: xs) (.op name args :: cs) ys
  | dict (args : List Obj) (x y : Option Val) (xs ys : List (Option Val)) (cs : List Content) : GsSets h res k args x y →
      StateRun h res k (y :: xs) cs ys → StateRun h res k (x :: xs) (.op b!"gs" args :: cs) ys
  | other (name : Bytes) (args : List Obj) (xs ys : List (Option Val)) (cs : List Content) : name ∉ [b!"q", b!"Q", b!"gs", b!"navigate"] →
      (name, k) ∉ settersOfOne → (name, k) ∉ settersOfAll → (name, k) ≠ (b!"cm", b!"CTM") → StateRun h res k xs cs ys →
      StateRun h res k xs (.op name args :: cs) ys

/-- The parameters for which this is right. -/
def parameters : List Bytes := [b!"CTM", b!"LW", b!"LC", b!"LJ", b!"ML", b!"D", b!"RI", b!"Font"]

end PdfReader.Spec
