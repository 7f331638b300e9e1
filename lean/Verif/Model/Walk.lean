/-
  Accesses to the objects of a document: attributes, keys and indices (types/objects.py, types/native.py).
-/
import Verif.Model.Objects

namespace PdfReader

/-- An access to an object: `obj.k`, `obj[k]` with a name, or `obj[i]` with a number. -/
inductive Access where
  | attr (k : Bytes)
  | key (k : Bytes)
  | index (i : Nat)
  deriving DecidableEq, Repr

/-- `obj[k]`: DictBasedObject.__getitem__ (types/objects.py:83-89) builds the value, also the exception is that of building; Stream.__getitem__
(types/native.py:92-93), which StreamBasedObject inherits, gives the entry of the dictionary as it was parsed; lists and other values have no such
items. -/
def item {σ : Type} (loc : Locator σ) (fuel : Nat) (v : Val) (k : Bytes) : DM σ Val :=
  match v with
  | .dict _ es =>
    match dictGet es k with
    | none => DM.pure (.error .keyError)
    | some o => build loc fuel [] o
  | .stream _ d _ => DM.pure (match dictGet d k with | none => .error .keyError | some o => .ok (.atom o))
  | _ => DM.pure (.error .typeError)

/-- `obj[i]`: ArrayBasedObject is a list of built values (types/objects.py:62-71, document.py:90). Simplification: characters of strings and names,
and bytes of byte strings, are not modelled (TypeError). -/
def atIndex {σ : Type} (v : Val) (i : Nat) : DM σ Val :=
  match v with
  | .arr vs => DM.pure (match vs[i]? with | some x => .ok x | none => .error .indexError)
  | .dict _ _ => DM.pure (.error .keyError)
  | .stream _ _ _ => DM.pure (.error .keyError)
  | .atom _ => DM.pure (.error .typeError)

/-- One access. -/
def access {σ : Type} (loc : Locator σ) (fuel : Nat) (v : Val) : Access → DM σ Val
  | .attr k => attr loc fuel v k
  | .key k => item loc fuel v k
  | .index i => atIndex v i

/-- Accesses one after the other, as in `doc.root.Pages.Kids[0].MediaBox[2]`. -/
def walk {σ : Type} (loc : Locator σ) (fuel : Nat) : Val → List Access → DM σ Val
  | v, [] => DM.pure (.ok v)
  | v, a :: p => (access loc fuel v a).bind fun w => walk loc fuel w p

end PdfReader
