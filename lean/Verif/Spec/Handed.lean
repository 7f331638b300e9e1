/-
  Sessions with a viewer in which the user changes canvases.
-/
import Verif.Spec.Viewer

namespace PdfReader.Spec

/-- A viewer, the canvases the user holds, and the pages which were rendered, after a history of calls which returned, in which the user took canvases from
the viewer and from an iterator over it, and changed canvases as he liked; only the canvas of the viewer is left alone from navigating to a page until the
page has been rendered. (`changed`: the canvas gets any other content; canvases of forms within it are not changed, but may be put in or taken out.) -/
inductive Handed (doc : DocPages) : Viewer → List Nat → List Int → Prop
  | opened (v : Viewer) : openViewer doc = .ok v → Handed doc v [] []
  | navigated (n : Int) (v v' : Viewer) (held : List Nat) (shown : List Int) : Handed doc v held shown → Viewer.navigate doc n v = (.ok (), v') → Handed doc v' held shown
  | rendered (v v' : Viewer) (held : List Nat) (shown : List Int) : Handed doc v held shown → Viewer.render v = (.ok (), v') → Handed doc v' held (v.number :: shown)
  | taken (v : Viewer) (held : List Nat) (shown : List Int) : Handed doc v held shown → Handed doc v (v.canvas :: held) shown
  | iterated (v v' : Viewer) (i : Nat) (last : Bool) (held : List Nat) (shown : List Int) : Handed doc v held shown →
      canvasNext doc (false, v) = (.ok (some i), (last, v')) → (last = true → NoPage doc (v.number + 1)) → Handed doc v' (i :: held) (v.number :: shown)
  | changed (v : Viewer) (i : Nat) (c : Canvas) (held : List Nat) (shown : List Int) : Handed doc v held shown → i ∈ held → (i = v.canvas → v.number ∈ shown) →
      Handed doc { v with heap := v.heap.set i c } held shown

end PdfReader.Spec
