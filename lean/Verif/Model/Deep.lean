/-
  `PDFDocument.deep_obj_by_ref`, document.py:127-135.
-/
import Verif.Model.Objects

namespace PdfReader

/-- What the method may be called with and what it holds on the way: a value, references included, or an IndirectObject, a number and a generation with
a value (types/native.py:IndirectObject). -/
inductive DeepArg where
  | val (v : Val)
  | indirect (num gen : Nat) (v : Obj)

/-- `obj_by_ref`, document.py:111-113. -/
def objByRef {σ : Type} (loc : Locator σ) (fuel num gen : Nat) : DM σ Val := (loc num gen).bind (factory loc fuel)

/-- The loop and the test behind it, document.py:128-135, with the counter. `isinstance(obj, IndirectObject)` does not hold for references, which are
a class of their own (types/native.py:IndirectReference). -/
def deepByRef {σ : Type} (loc : Locator σ) (fuel : Nat) : Nat → DeepArg → DM σ Val
  | _, .val v => DM.pure (.ok v)
  | 0, .indirect _ _ _ => DM.pure (.error .valueError)
  | counter + 1, .indirect num gen _ => (objByRef loc fuel num gen).bind fun v => deepByRef loc fuel counter (.val v)

end PdfReader
