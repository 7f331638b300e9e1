/-
  Which rows of a CMap are proper, and which codes a CMap has.
-/
import Verif.Spec.CMap

namespace PdfReader.Spec

/-- The digits of the rows of a block are hexadecimal digits in upper case, as the parser gives them; its kind is known; elements outside of
sections do not start one. -/
def Block.Written : Block → Prop
  | .item i => (Block.item i).Ok
  | .ranges k rows => k ∈ kinds ∧ ∀ r ∈ rows, UpHex r.lo ∧ UpHex r.hi ∧ match r.dst with | .code d => UpHex d | .num _ => True | .list ds => ∀ d ∈ ds, UpHex d
  | .chars k rows => k ∈ kinds ∧ ∀ p ∈ rows, UpHex p.1 ∧ UpHex p.2
  | .codespace rows => ∀ p ∈ rows, UpHex p.1 ∧ UpHex p.2

/-- The bounds of a range: of the same positive number of digits, the first not above the last. -/
def ProperBounds (lo hi : Bytes) : Prop := lo ≠ [] ∧ lo.length = hi.length ∧ hexValue lo ≤ hexValue hi

/-- A proper row: proper bounds, and a destination for each of its codes. -/
def ProperRow (r : RangeRow) : Prop :=
  ProperBounds r.lo r.hi ∧ match r.dst with | .code d => d ≠ [] | .num _ => True | .list ds => hexValue r.hi - hexValue r.lo < ds.length

/-- All rows of a CMap are proper. Rows of `bfchar` sections always are. -/
def AllProper (bs : List Block) : Prop :=
  (∀ p ∈ codespaceRows bs, ProperBounds p.1 p.2) ∧
  ∀ k ∈ kinds, (∀ r ∈ rangeRows k bs, ProperRow r) ∧ (k ≠ b!"bf" → ∀ p ∈ charRows k bs, p.1 ≠ [] ∧ p.2 ≠ [])

/-- All destinations of a kind of mapping are numbers: there are no arrays of texts, and no `bfchar` rows. -/
def NumbersOnly (kind : Bytes) (bs : List Block) : Prop :=
  (∀ r ∈ rangeRows kind bs, ∀ ds, r.dst ≠ .list ds) ∧ (kind = b!"bf" → charRows kind bs = [])

end PdfReader.Spec
