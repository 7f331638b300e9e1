/-
  The order in which the handlers of a viewer are called (the documentation of `notify`).
-/
import Verif.Model.Content

namespace PdfReader.Spec

/-- The name of an object in the names of its handlers. -/
def handledAs (alias : Bytes → Bytes) : PdfReader.Content → Bytes
  | .op name _ => alias name
  | .image _ _ => b!"inline_image"

/-- The handlers which are called for an object, in order: `before_handler`; `before_…`, `on_…` and `after_…`, those that there are; `after_handler`. -/
def callsFor (alias : Bytes → Bytes) (defined : Bytes → Bool) (o : PdfReader.Content) : List Bytes :=
  b!"before_handler" :: ([b!"before_" ++ handledAs alias o, b!"on_" ++ handledAs alias o, b!"after_" ++ handledAs alias o].filter defined ++ [b!"after_handler"])

/-- The handlers SimplePDFViewer has. -/
def simpleHandlers : List Bytes :=
  [b!"before_handler", b!"after_handler", b!"before_Do", b!"on_Do", b!"after_Do", b!"before_navigate", b!"after_navigate", b!"on_q", b!"on_Q", b!"on_cm", b!"on_w",
   b!"on_J", b!"on_j", b!"on_M", b!"on_d", b!"on_ri", b!"on_i", b!"on_gs", b!"on_BT", b!"on_ET", b!"on_Tf", b!"on_Tj", b!"on_apostrophe", b!"on_TJ",
   b!"on_quotation", b!"on_Tstar", b!"on_DP", b!"on_BDC", b!"on_inline_image", b!"on_document_load"]

/-- The aliases of SimplePDFViewer. -/
def simpleAlias (name : Bytes) : Bytes :=
  if name = b!"'" then b!"apostrophe" else if name = b!"\"" then b!"quotation" else if name = b!"T*" then b!"Tstar" else name

end PdfReader.Spec
