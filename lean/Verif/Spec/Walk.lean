/-
  Where a path of accesses leads in the objects of a file.
-/
import Verif.Model.Walk
import Verif.Spec.Objects

namespace PdfReader.Spec

/-- Names which are no attributes of Python's own: those with a capital letter first. -/
def Capital (k : Bytes) : Prop := ∃ c r, k = c :: r ∧ 65 ≤ c.toNat ∧ c.toNat ≤ 90

/-- Following the accesses from a value leads to a value, or fails with an exception. References are resolved on the way; a missing attribute is None,
a missing key is a KeyError. -/
inductive Walks (store : Store) : Val → List Access → Res Val → Prop
  | done (v : Val) : Walks store v [] (.ok v)
  | attr (c : Option Bytes) (es : List (Bytes × Obj)) (k : Bytes) (v : Val) (p : List Access) (r : Res Val) : Capital k → EntryIs store es k v →
      Walks store v p r → Walks store (.dict c es) (.attr k :: p) r
  | noAttr (c : Option Bytes) (es : List (Bytes × Obj)) (k : Bytes) (p : List Access) (r : Res Val) : Capital k → NoEntry es k →
      Walks store (.atom .null) p r → Walks store (.dict c es) (.attr k :: p) r
  | streamAttr (cls : Bytes) (d : List (Bytes × Obj)) (raw k : Bytes) (v : Val) (p : List Access) (r : Res Val) : Capital k → EntryIs store d k v →
      Walks store v p r → Walks store (.stream cls d raw) (.attr k :: p) r
  | noStreamAttr (cls : Bytes) (d : List (Bytes × Obj)) (raw k : Bytes) (p : List Access) (r : Res Val) : Capital k → NoEntry d k →
      Walks store (.atom .null) p r → Walks store (.stream cls d raw) (.attr k :: p) r
  | otherAttr (o : Obj) (k : Bytes) (p : List Access) : Capital k → Walks store (.atom o) (.attr k :: p) (.error .attributeError)
  | arrayAttr (vs : List Val) (k : Bytes) (p : List Access) : Capital k → Walks store (.arr vs) (.attr k :: p) (.error .attributeError)
  | key (c : Option Bytes) (es : List (Bytes × Obj)) (k : Bytes) (v : Val) (p : List Access) (r : Res Val) : EntryIs store es k v →
      Walks store v p r → Walks store (.dict c es) (.key k :: p) r
  | noKey (c : Option Bytes) (es : List (Bytes × Obj)) (k : Bytes) (p : List Access) : dictGet es k = none →
      Walks store (.dict c es) (.key k :: p) (.error .keyError)
  | noStreamKey (cls : Bytes) (d : List (Bytes × Obj)) (raw k : Bytes) (p : List Access) : dictGet d k = none →
      Walks store (.stream cls d raw) (.key k :: p) (.error .keyError)
  | index (vs : List Val) (i : Nat) (v : Val) (p : List Access) (r : Res Val) : vs[i]? = some v → Walks store v p r →
      Walks store (.arr vs) (.index i :: p) r
  | noIndex (vs : List Val) (i : Nat) (p : List Access) : vs.length ≤ i → Walks store (.arr vs) (.index i :: p) (.error .indexError)

/-- The value of an attribute of a page, or else of the nearest of its ancestors which has it (7.7.3.4). -/
inductive Inherited (store : Store) (k : Bytes) : List (Bytes × Obj) → Val → Prop
  | own (es : List (Bytes × Obj)) (v : Val) : EntryIs store es k v → v ≠ .atom .null → Inherited store k es v
  | up (es ps : List (Bytes × Obj)) (c : Option Bytes) (v : Val) : NoEntry es k → EntryIs store es b!"Parent" (.dict c ps) → Inherited store k ps v →
      Inherited store k es v

end PdfReader.Spec
