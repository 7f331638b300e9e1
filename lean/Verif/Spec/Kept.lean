/-
  A canvas which has everything another one has.
-/
import Verif.Model.Viewer

namespace PdfReader.Spec

/-- `Continues c d`: the strings, the text and the inline images of `d` begin with those of `c`; images and forms of `c` are on `d` under the same names. -/
structure Continues (c d : Canvas) : Prop where
  strings : ∃ more, d.strings = c.strings ++ more
  text : ∃ more, d.text = c.text ++ more
  inline : ∃ more, d.inline = c.inline ++ more
  images : ∀ n x, assoc n c.images = some x → assoc n d.images = some x
  forms : ∀ n f, assoc n c.forms = some f → assoc n d.forms = some f

end PdfReader.Spec
