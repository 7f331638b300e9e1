/-
  What a user sees of a document and of a viewer: the answers to a sequence of questions, and the results of a sequence of calls.
-/
import Verif.Spec.Viewer
import Verif.Spec.Eager
import Verif.Model.View
import Verif.Model.Walk

namespace PdfReader.Spec

/-- Questions to a document: a walk from `doc.root`, `list(doc.pages())`, the resources of a page that was listed. -/
inductive Query where
  | walk (path : List Access)
  | pages
  | resources (page : Nat)

/-- Answers. -/
inductive Answer where
  | value (r : Res Val)
  | listed (pages : List Val) (fails : Option Exc)
  | resources (r : Res Resources)

/-- A question, to a document in the state which the questions before have left; also after exceptions. -/
def Query.ask {σ : Type} (loc : Locator σ) (fuel : Nat) (root : Val) (s : σ) : Query → Answer × σ
  | .walk path => match PdfReader.walk loc fuel root path s with | (r, s) => (.value r, s)
  | .pages => match docPages loc fuel root s with | (ps, e, s) => (.listed ps e, s)
  | .resources n =>
    match docPages loc fuel root s with
    | (ps, _, s) =>
      match ps[n]? with
      | none => (.resources (.error .indexError), s)
      | some p => match fromPage loc fuel p [] s with | (r, s) => (.resources r, s)

/-- Questions one after the other. -/
def answers {σ : Type} (loc : Locator σ) (fuel : Nat) (root : Val) : σ → List Query → List Answer
  | _, [] => []
  | s, q :: qs => match q.ask loc fuel root s with | (a, s) => a :: answers loc fuel root s qs

/-- Calls one after the other: how each ends, the number of the page then, and the canvas then. -/
def observe (doc : DocPages) : Viewer → List Call → List (Res Unit × Int × Canvas)
  | _, [] => []
  | v, c :: cs => match c.run doc v with | (r, v) => (r, v.number, v.current) :: observe doc v cs

end PdfReader.Spec
