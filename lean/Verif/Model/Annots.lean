/-
  `viewer.annotations`.
-/
import Verif.Model.View

namespace PdfReader

/-- `viewer.annotations`, viewer/pdfviewer.py:323-331: `self.current_page.Annots`, where the current page (230-233) is that of the current number among the pages known.
`pages` are the page objects of the document in their order; the viewer's own record of a page (`PageInfo`) has only what rendering needs, so the page object is
looked up by its number. -/
def Viewer.annotations {σ : Type} (loc : Locator σ) (fuel : Nat) (pages : List Val) (v : Viewer) : DM σ Val :=
  match assoc v.number v.known, pages[(v.number - 1).toNat]? with
  | some _, some page => attr loc fuel page b!"Annots"
  | _, _ => DM.pure (.error .keyError)

end PdfReader
