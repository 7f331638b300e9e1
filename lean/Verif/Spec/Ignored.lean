/-
  Commands which mean nothing to a viewer of texts and images.
-/
import Verif.Spec.Viewer

namespace PdfReader.Spec

/-- The operators which a viewer interprets: graphics state, XObjects, and texts. -/
def interpreted : List Bytes :=
  [b!"q", b!"Q", b!"cm", b!"w", b!"J", b!"j", b!"M", b!"d", b!"ri", b!"i", b!"gs", b!"Do", b!"BT", b!"ET", b!"Tf", b!"Tj", b!"'", b!"TJ", b!"\"", b!"DP", b!"BDC"]

/-- Words which are no operators of PDF, and which the viewer takes for names of its own methods. -/
def clashing : List Bytes := [b!"navigate", b!"handler", b!"document_load", b!"inline_image", b!"apostrophe", b!"quotation"]

/-- `Without words cs ds`: `ds` is `cs` without some of the commands whose operators are none of `words`. -/
inductive Without (words : List Bytes) : List Content → List Content → Prop
  | nil : Without words [] []
  | kept (c : Content) (cs ds : List Content) : Without words cs ds → Without words (c :: cs) (c :: ds)
  | left (name : Bytes) (args : List Obj) (cs ds : List Content) : name ∉ words → (∀ o ∈ args, Plain o) → Without words cs ds →
      Without words (.op name args :: cs) ds

end PdfReader.Spec
