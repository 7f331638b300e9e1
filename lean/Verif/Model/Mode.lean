/-
  The mode of a viewer, pdfreader/viewer/simple.py:83-87.
-/
import Verif.Model.Viewer

namespace PdfReader

/-- `TextOperatorsMixin.mode`, simple.py:83-87, while a content stream is rendered: the name of the operator on top of the stack. -/
def Paint.mode (p : Paint) : Option Bytes := p.brackets.head?

/-- `viewer.mode`, simple.py:83-87. -/
def Viewer.mode (v : Viewer) : Option Bytes := v.brackets.head?

end PdfReader
