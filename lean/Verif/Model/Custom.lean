/-
  Viewers with handlers of their own: `notify` and `render` of pdfreader/viewer/pdfviewer.py for any class of viewers, and SimplePDFViewer as
  one of them.

  Simplification: a handler is a function of the object and the state of the viewer, which gives the object as it leaves it (in Python it
  changes the object in place).
-/
import Verif.Model.Viewer

namespace PdfReader

/-- What handlers are called with: an operator with its operands as the handlers before left them, or an inline image. -/
inductive Seen where
  | op (name : Bytes) (args : List Arg)
  | image (d : List (Bytes × Obj)) (data : Bytes)

/-- An object as the parser delivers it. -/
def Seen.fresh : Content → Seen
  | .op name args => .op name (args.map .obj)
  | .image d data => .image d data

/-- A class of viewers: `operators_aliases`, and its callable attributes by name. -/
structure ViewerClass (σ : Type) where
  alias : Bytes → Bytes
  handler : Bytes → Option (Seen → DM σ Seen)

variable {σ : Type}

/-- `get_handler_name`, pdfviewer.py:79-88: the name of the handler for a stage. -/
def ViewerClass.handlerName (c : ViewerClass σ) (stage : Bytes) : Seen → Bytes
  | .op name _ => stage ++ (b!"_" ++ c.alias name)
  | .image _ _ => stage ++ b!"_inline_image"

/-- `handler = getattr(self, name, None); if handler and callable(handler): handler(obj)`, pdfviewer.py:109-111. -/
def ViewerClass.optional (c : ViewerClass σ) (name : Bytes) (o : Seen) : DM σ Seen :=
  match c.handler name with
  | some f => f o
  | none => DM.pure (.ok o)

/-- The loop over `operator_flow`, pdfviewer.py:106-111. -/
def ViewerClass.flow (c : ViewerClass σ) : List Bytes → Seen → DM σ Seen
  | [], o => DM.pure (.ok o)
  | stage :: stages, o => (c.optional (c.handlerName stage o) o).bind fun o => c.flow stages o

/-- `self.before_handler(obj)` -/
def ViewerClass.required (c : ViewerClass σ) (name : Bytes) (o : Seen) : DM σ Seen :=
  match c.handler name with
  | some f => f o
  | none => DM.pure (.error .attributeError)

/-- `operator_flow`, pdfviewer.py:58 -/
def operatorFlow : List Bytes := [b!"before", b!"on", b!"after"]

/-- `notify`, pdfviewer.py:93-112. -/
def ViewerClass.notify (c : ViewerClass σ) (o : Seen) : DM σ Unit :=
  (c.required b!"before_handler" o).bind fun o => (c.flow operatorFlow o).bind fun o => (c.required b!"after_handler" o).bind fun _ => DM.pure (.ok ())

/-- The loop of `render`, pdfviewer.py:119-120. -/
def ViewerClass.notifyAll (c : ViewerClass σ) : List Content → DM σ Unit
  | [] => DM.pure (.ok ())
  | o :: os => (c.notify (.fresh o)).bind fun _ => c.notifyAll os

/-- `render`, pdfviewer.py:114-120: the exception of the parser comes after its objects. -/
def ViewerClass.render (c : ViewerClass σ) (stream : Bytes) : DM σ Unit :=
  (c.notifyAll (contentObjects stream).1).bind fun _ =>
    match (contentObjects stream).2 with
    | none => DM.pure (.ok ())
    | some e => DM.pure (.error e)

/-! ### SimplePDFViewer -/

/-- Operands no handler has changed. -/
def plainArgs : List Arg → Option (List Obj)
  | [] => some []
  | .obj o :: as => (plainArgs as).map (o :: ·)
  | _ => none

/-- `object_to_string` of what a handler sees. -/
def printSeen : Seen → Res Text
  | .op name args => printOp name args
  | .image d data => printObj (.image d data)

/-- A handler `on_…` of SimplePDFViewer. Simplification: operands which another handler has changed are a TypeError. -/
def onSeen (h : Host) (res : Resources) (n : Bytes) : Seen → DM Paint Seen
  | .op name args =>
    match plainArgs args with
    | some os => (onOperator h res (onDoPage h res) n os).bind fun shown => DM.pure (.ok (.op name shown))
    | none => DM.pure (.error .typeError)
  | .image d data => fun p => (.ok (.image d data), { p with canvas := { p.canvas with inline := p.canvas.inline ++ [.image d data] } })

/-- A handler which leaves the object as it is. -/
def leaving (m : DM Paint Unit) (o : Seen) : DM Paint Seen := m.bind fun _ => DM.pure (.ok o)

/-- What follows `on_` in the names of the methods of SimplePDFViewer, simple.py:115-173, 213 and pdfviewer.py:124-182, 288. -/
def onNames : List Bytes :=
  [b!"q", b!"Q", b!"cm", b!"w", b!"J", b!"j", b!"M", b!"d", b!"ri", b!"i", b!"gs", b!"BT", b!"ET", b!"Tf", b!"Tj", b!"apostrophe", b!"TJ", b!"quotation",
   b!"Tstar", b!"DP", b!"BDC", b!"Do", b!"inline_image", b!"document_load"]

/-- SimplePDFViewer, simple.py. -/
def simpleClass (h : Host) (res : Resources) : ViewerClass Paint :=
  { alias := aliasOf,
    handler := fun n =>
      if n = b!"before_handler" then some fun o => DM.pure (.ok o)
      else if n = b!"after_handler" then some fun o => leaving (addText (printSeen o)) o
      else if n = b!"before_Do" then some (leaving saveState)
      else if n = b!"after_Do" then some (leaving restoreState)
      else if n = b!"before_navigate" then some fun o => DM.pure (.ok o)
      else if n = b!"after_navigate" then some (leaving resetPaint)
      else if n.take 3 = b!"on_" ∧ n.drop 3 ∈ onNames then some (onSeen h res (n.drop 3))
      else none }

/-! ### Watching -/

/-- A subclass whose handlers note their name and then do what they did before; for the names `extra` it has handlers even if the class has none. -/
def ViewerClass.watched (c : ViewerClass σ) (extra : Bytes → Bool) : ViewerClass (σ × List Bytes) :=
  { alias := c.alias,
    handler := fun n =>
      if (c.handler n).isSome || extra n then some fun o s => ((c.optional n o s.1).1, ((c.optional n o s.1).2, s.2 ++ [n])) else none }

end PdfReader
