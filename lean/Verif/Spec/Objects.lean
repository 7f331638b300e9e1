/-
  What the objects of a document mean to a user: values behind references, page trees and inherited resources.
-/
import Verif.Model.Objects

namespace PdfReader.Spec

/-- What the file defines. -/
abbrev Store := Nat → Nat → Option Obj

/-- The parser delivers the defined objects, in every state it can be in (`I`). -/
def Delivers {σ : Type} (loc : Locator σ) (I : σ → Prop) (store : Store) : Prop :=
  ∀ n g o s, I s → store n g = some o → (loc n g s).1 = .ok o ∧ I (loc n g s).2

/-- Computations which deliver a value in every state. -/
def Gives {σ α : Type} (I : σ → Prop) (m : DM σ α) (v : α) : Prop := ∀ s, I s → (m s).1 = .ok v ∧ I (m s).2

/-- The class of a dictionary: its Type, if there is a class for it. -/
inductive DictKind (es : List (Bytes × Obj)) : Option Bytes → Prop
  | typed (t : Bytes) : dictGet es b!"Type" = some (.name t) → t ∈ dictTypes → DictKind es (some t)
  | other (t : Bytes) : dictGet es b!"Type" = some (.name t) → t ∉ dictTypes → DictKind es none
  | untyped : dictGet es b!"Type" = none → DictKind es none

/-- The class of a stream: XObjects by their Subtype, others by their Type. -/
inductive StreamKind (d : List (Bytes × Obj)) : Bytes → Prop
  | xobject (u : Bytes) : dictGet d b!"Type" = some (.name b!"XObject") → dictGet d b!"Subtype" = some (.name u) →
      u ∈ [b!"Image", b!"Form", b!"Group"] → StreamKind d u
  | otherXObject (u : Bytes) : dictGet d b!"Type" = some (.name b!"XObject") → dictGet d b!"Subtype" = some (.name u) →
      u ∉ [b!"Image", b!"Form", b!"Group"] → StreamKind d b!"XObject"
  | typed (t : Bytes) : dictGet d b!"Type" = some (.name t) → t ∈ [b!"ObjectStream", b!"CMap", b!"Metadata"] → StreamKind d t
  | other (t : Bytes) : dictGet d b!"Type" = some (.name t) → t ∉ [b!"XObject", b!"ObjectStream", b!"CMap", b!"Metadata"] →
      StreamKind d b!"StreamBasedObject"
  | plain : dictGet d b!"Type" = none → StreamKind d b!"StreamBasedObject"

/-- Objects without parts. -/
def Atomic : Obj → Prop
  | .null | .bool _ | .int _ | .real _ _ | .name _ | .str _ | .hex _ => True
  | _ => False

/-- What the user sees of an object: itself, with references replaced by the objects they refer to. The entries of dictionaries and
streams are seen when they are read. -/
inductive Reads (store : Store) : Obj → Val → Prop
  | atom (o : Obj) : Atomic o → Reads store o (.atom o)
  | dict (es : List (Bytes × Obj)) (c : Option Bytes) : DictKind es c → Reads store (.dict es) (.dict c es)
  | stream (d : List (Bytes × Obj)) (data c : Bytes) : StreamKind d c → Reads store (.stream d data) (.stream c d data)
  | nil : Reads store (.arr []) (.arr [])
  | cons (x : Obj) (v : Val) (xs : List Obj) (vs : List Val) : Reads store x v → Reads store (.arr xs) (.arr vs) →
      Reads store (.arr (x :: xs)) (.arr (v :: vs))
  | ref (n g : Nat) (o : Obj) (v : Val) : store n g = some o → (∀ n g, o ≠ .ref n g) → Reads store o v → Reads store (.ref n g) v

/-- An entry which is absent or null. -/
def NoEntry (es : List (Bytes × Obj)) (k : Bytes) : Prop := dictGet es k = none ∨ dictGet es k = some .null

/-- An entry as the user sees it. -/
def EntryIs (store : Store) (es : List (Bytes × Obj)) (k : Bytes) (v : Val) : Prop := ∃ o, dictGet es k = some o ∧ Reads store o v

/-! ### Page trees -/

/-- Kids is an array of references, given directly or by a reference. -/
inductive KidsAre (store : Store) : List (Bytes × Obj) → List (Nat × Nat) → Prop
  | direct (es : List (Bytes × Obj)) (kids : List (Nat × Nat)) : dictGet es b!"Kids" = some (.arr (kids.map fun k => .ref k.1 k.2)) →
      KidsAre store es kids
  | indirect (es : List (Bytes × Obj)) (n g : Nat) (kids : List (Nat × Nat)) : dictGet es b!"Kids" = some (.ref n g) →
      store n g = some (.arr (kids.map fun k => .ref k.1 k.2)) → KidsAre store es kids

mutual
/-- The object `n g` is a page tree with these pages, from left to right. -/
inductive PageTree (store : Store) : Nat → Nat → List (List (Bytes × Obj)) → Prop
  | page (n g : Nat) (es : List (Bytes × Obj)) : store n g = some (.dict es) → dictGet es b!"Type" = some (.name b!"Page") →
      PageTree store n g [es]
  | node (n g : Nat) (es : List (Bytes × Obj)) (kids : List (Nat × Nat)) (ps : List (List (Bytes × Obj))) :
      store n g = some (.dict es) → dictGet es b!"Type" = some (.name b!"Pages") → KidsAre store es kids → PageTrees store kids ps →
      PageTree store n g ps
/-- The pages of several trees. -/
inductive PageTrees (store : Store) : List (Nat × Nat) → List (List (Bytes × Obj)) → Prop
  | nil : PageTrees store [] []
  | cons (n g : Nat) (kids : List (Nat × Nat)) (ps qs : List (List (Bytes × Obj))) : PageTree store n g ps → PageTrees store kids qs →
      PageTrees store ((n, g) :: kids) (ps ++ qs)
end

/-! ### Resources -/

/-- Every entry of a dictionary, as the user sees it. -/
inductive ItemsAre (store : Store) : List (Bytes × Obj) → List (Bytes × Val) → Prop
  | nil : ItemsAre store [] []
  | cons (k : Bytes) (o : Obj) (v : Val) (es : List (Bytes × Obj)) (vs : List (Bytes × Val)) : Reads store o v → ItemsAre store es vs →
      ItemsAre store ((k, o) :: es) ((k, v) :: vs)

/-- The contents of a category of resources: named resources, procedure sets, or nothing of use. -/
inductive CategoryIs (store : Store) : Val → Category → Prop
  | named (c : Option Bytes) (es : List (Bytes × Obj)) (vs : List (Bytes × Val)) : ItemsAre store es vs → (es.map (·.1)).Nodup →
      CategoryIs store (.dict c es) (.named vs)
  | procs (ns : List Bytes) : CategoryIs store (.arr (ns.map fun n => .atom (.name n))) (.procs ns)

/-- A resource dictionary, category by category. -/
inductive CategoriesAre (store : Store) : List (Bytes × Obj) → List (Bytes × Category) → Prop
  | nil : CategoriesAre store [] []
  | cons (k : Bytes) (o : Obj) (v : Val) (c : Category) (es : List (Bytes × Obj)) (cs : List (Bytes × Category)) : Reads store o v →
      CategoryIs store v c → CategoriesAre store es cs → CategoriesAre store ((k, o) :: es) ((k, c) :: cs)

/-- The resources which a page or a node of the page tree defines itself. -/
inductive OwnResources (store : Store) (es : List (Bytes × Obj)) : List (Bytes × Category) → Prop
  | absent : NoEntry es b!"Resources" → OwnResources store es []
  | present (c : Option Bytes) (rs : List (Bytes × Obj)) (cs : List (Bytes × Category)) : EntryIs store es b!"Resources" (.dict c rs) →
      CategoriesAre store rs cs → (rs.map (·.1)).Nodup → OwnResources store es cs

/-- The resources of a page and its ancestors, the nearest first. -/
inductive Ancestry (store : Store) : List (Bytes × Obj) → List (List (Bytes × Category)) → Prop
  | top (es : List (Bytes × Obj)) (own : List (Bytes × Category)) : OwnResources store es own → NoEntry es b!"Parent" → Ancestry store es [own]
  | child (es : List (Bytes × Obj)) (own : List (Bytes × Category)) (c : Option Bytes) (ps : List (Bytes × Obj))
      (rest : List (List (Bytes × Category))) : OwnResources store es own → EntryIs store es b!"Parent" (.dict c ps) → ps ≠ [] →
      Ancestry store ps rest → Ancestry store es (own :: rest)

/-- The named resource which one node defines. -/
def definedIn (own : List (Bytes × Category)) (category name : Bytes) : Option Val :=
  match own.find? (fun e => e.1 == category) with
  | some (_, .named vs) => (vs.find? (fun e => e.1 == name)).map (·.2)
  | _ => none

/-- The nearest definition. -/
def nearest (chain : List (List (Bytes × Category))) (category name : Bytes) : Option Val :=
  chain.findSome? fun own => definedIn own category name

/-- No category holds named resources in one node and procedure sets in another. -/
def Consistent (chain : List (List (Bytes × Category))) : Prop :=
  ∃ isProcs : Bytes → Bool, ∀ own ∈ chain, ∀ e ∈ own, match e.2 with | .procs _ => isProcs e.1 = true | .named _ => isProcs e.1 = false

end PdfReader.Spec
