/-
  Written files some of whose objects are damaged: overwritten by other bytes, as many.
-/
import Verif.Spec.Write

namespace PdfReader.Spec

/-- The objects of a revision, a line each; instead of those which `may` be damaged there may be any bytes of the same length. -/
inductive SpoiledBody (may : Nat → Nat → Prop) : List FileItem → Bytes → Prop
  | nil : SpoiledBody may [] []
  | kept (i : FileItem) (is : List FileItem) (t : Bytes) : SpoiledBody may is t → SpoiledBody may (i :: is) (showItem i ++ (10 :: t))
  | spoiled (i : FileItem) (is : List FileItem) (junk t : Bytes) : may i.num i.gen → junk.length = (showItem i).length → SpoiledBody may is t →
      SpoiledBody may (i :: is) (junk ++ (10 :: t))

/-- The text of a revision after its objects: table, trailer and `startxref`. -/
def Draft.closing (d : Draft) (start : Nat) (prev : Option Nat) : Bytes := (d.show start prev).drop (showBody d.items).length

/-- Revisions, oldest first. Objects for which `bad` holds may be damaged, and those which a later revision replaces. -/
inductive SpoiledDrafts (bad : Nat → Nat → Bool) : Nat → Option Nat → List Draft → Bytes → Prop
  | nil (start : Nat) (prev : Option Nat) : SpoiledDrafts bad start prev [] []
  | cons (start : Nat) (prev : Option Nat) (d : Draft) (ds : List Draft) (body t : Bytes) :
      SpoiledBody (fun n g => bad n g = true ∨ contentOf ds n g ≠ none) d.items body →
      SpoiledDrafts bad (start + (d.show start prev).length) (some (start + (showBody d.items).length)) ds t →
      SpoiledDrafts bad start prev (d :: ds) (body ++ (d.closing start prev ++ t))

/-- `file` is what was written for `ds`, with such damages. -/
def Spoiled (bad : Nat → Nat → Bool) (ds : List Draft) (file : Bytes) : Prop := ∃ t, file = fileHeader ++ t ∧ SpoiledDrafts bad fileHeader.length none ds t

/-- The objects which are not damaged, with their newest values. -/
def intact (bad : Nat → Nat → Bool) (ds : List Draft) (n g : Nat) : Option Obj := if bad n g then none else contentOf ds n g

end PdfReader.Spec
