/-
  Glyph names and the lists which map them to texts.
-/
import Verif.Model.Basic

namespace PdfReader

/-- A number for each name (injective, see `nameKey_inj`); it only serves to look names up fast. -/
def nameKey (n : Bytes) : Nat := n.foldl (fun k c => k * 256 + c.toNat) 1

/-- `k!"name"` is the key of a name, computed at elaboration time. -/
syntax:max (name := keyLit) "k!" noWs str : term

open Lean in
macro_rules
  | `(k!$s:str) => do
    let k := s.getString.toList.foldl (fun k c => k * 256 + c.toNat) 1
    return Syntax.mkNumLit (toString k)

example : k!"Aacute" = nameKey b!"Aacute" := rfl

/-- A dictionary from names to texts: a search tree by keys. -/
inductive GlyphTree where
  | nil
  | node (l : GlyphTree) (k : Nat) (v : List Nat) (r : GlyphTree)

/-- `d.get(name)` -/
def GlyphTree.get : GlyphTree → Nat → Option (List Nat)
  | .nil, _ => none
  | .node l k v r, x => if x = k then some v else if x < k then l.get x else r.get x

end PdfReader
