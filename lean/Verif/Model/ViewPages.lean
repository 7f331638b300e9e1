/-
  `viewer.iter_pages()`: the iterators over the pages of a viewer, which use the viewer's own current page.
-/
import Verif.Model.Viewer

namespace PdfReader

/-- `PagesIterator.__next__`, viewer/pdfviewer.py:44-52: `none` is StopIteration; the Bool is `last_page_reached`; `current_page` is pdfviewer.py:230-233. -/
def pagesNext (doc : DocPages) : DM (Bool × Viewer) (Option PageInfo) := fun (last, v) =>
  if last then (.ok none, (last, v))
  else
    match assoc v.number v.known with
    | none => (.error .keyError, (last, v))
    | some pg =>
      match v.next doc with
      | (.error .pageDoesNotExist, v) => (.ok (some pg), (true, v))
      | (.error e, v) => (.error e, (last, v))
      | (.ok _, v) => (.ok (some pg), (last, v))

/-- A viewer with iterators over its pages: which of them have ended, and what each of them has given. -/
structure Browsing where
  viewer : Viewer
  ended : Nat → Bool := fun _ => false
  seen : Nat → List (Res (Option PageInfo)) := fun _ => []

/-- What is done next: iterator `i` is advanced, the page is rendered, the viewer is moved. -/
inductive Browse where
  | next (i : Nat)
  | render
  | move (n : Int)

/-- One use; exceptions of rendering and moving are caught by the user. -/
def Browsing.use (doc : DocPages) (w : Browsing) : Browse → Browsing
  | .next i =>
    match pagesNext doc (w.ended i, w.viewer) with
    | (r, last, v) => ⟨v, fun j => if j = i then last else w.ended j, fun j => if j = i then w.seen i ++ [r] else w.seen j⟩
  | .render => { w with viewer := w.viewer.render.2 }
  | .move n => { w with viewer := (w.viewer.navigate doc n).2 }

/-- Uses in the order of a schedule. -/
def Browsing.run (doc : DocPages) (w : Browsing) (schedule : List Browse) : Browsing := schedule.foldl (Browsing.use doc) w

end PdfReader
