/-
  Iterators over the pages of a document as Python runs them: suspended between two pages, several of them at the same time.
  Model/Objects.lean has the whole iteration (`pages`, `docPages`).
-/
import Verif.Model.Objects

namespace PdfReader

/-- A suspended call of `PageTreeNode.pages`, types/objects.py:166-179: before its first step, with the node it was called for, or inside of the `for`
loop, with the children still to come. -/
inductive Frame where
  | start (node : Val)
  | rest (children : List Val)

/-- A generator: `self`, and the suspended calls, the innermost first. None are left after the end and after an exception. -/
structure PageIter where
  root : Val
  frames : List Frame

/-- `next(pages)`, types/objects.py:166-179: the next page, or `none` for StopIteration; the generator afterwards, and the state of the document. -/
def nextPage {σ : Type} (loc : Locator σ) (root : Val) : Nat → List Frame → σ → Res (Option Val) × List Frame × σ
  | 0, fs, s => (.error .diverges, fs, s)
  | _ + 1, [], s => (.ok none, [], s)
  | fuel + 1, .start node :: fs, s =>
    match attr loc fuel (orSelf root node) b!"Kids" s with
    | (.error e, s1) => (.error e, [], s1)
    | (.ok v, s1) =>
      match kidsOf v with
      | .error e => (.error e, [], s1)
      | .ok kids => nextPage loc root fuel (.rest kids :: fs) s1
  | fuel + 1, .rest [] :: fs, s => nextPage loc root fuel fs s
  | fuel + 1, .rest (c :: cs) :: fs, s => if isPage c then (.ok (some c), .rest cs :: fs, s) else nextPage loc root fuel (.start c :: .rest cs :: fs) s

/-- `doc.pages()`, document.py:140-146: `root.Pages` is read at once, the tree by the generator. -/
def startPages {σ : Type} (loc : Locator σ) (fuel : Nat) (root : Val) : DM σ PageIter := fun s =>
  match attr loc fuel root b!"Pages" s with
  | (.error e, s1) => (.error e, s1)
  | (.ok (.dict (some c) es), s1) =>
    if c = b!"Pages" then (.ok ⟨.dict (some c) es, [.start (.dict (some c) es)]⟩, s1) else (.error .typeError, s1)
  | (.ok (.dict none _), s1) | (.ok (.stream _ _ _), s1) => (.error .typeError, s1)
  | (.ok _, s1) => (.error .attributeError, s1)

/-- A document in use: its state, the iterators which were started, and what each of them has given. -/
structure Reading (σ : Type) where
  st : σ
  iters : Nat → Option PageIter
  seen : Nat → List (Res (Option Val))

/-- What is done next: a page is asked of iterator `i` (which is started by the first question), or something else with the document. -/
inductive Use (σ : Type) where
  | next (i : Nat)
  | other (m : σ → σ)

/-- The answer of an iterator which exists. -/
def Reading.ask {σ : Type} (loc : Locator σ) (fuel : Nat) (w : Reading σ) (i : Nat) (it : PageIter) (s : σ) : Reading σ :=
  let r := nextPage loc it.root fuel it.frames s
  { st := r.2.2, iters := fun j => if j = i then some ⟨it.root, r.2.1⟩ else w.iters j, seen := fun j => if j = i then w.seen i ++ [r.1] else w.seen j }

/-- One use. -/
def Reading.use {σ : Type} (loc : Locator σ) (fuel : Nat) (root : Val) (w : Reading σ) : Use σ → Reading σ
  | .other m => { w with st := m w.st }
  | .next i =>
    match w.iters i with
    | some it => w.ask loc fuel i it w.st
    | none =>
      match startPages loc fuel root w.st with
      | (.error e, s1) => { w with st := s1, seen := fun j => if j = i then w.seen i ++ [.error e] else w.seen j }
      | (.ok it, s1) => w.ask loc fuel i it s1

/-- Uses in the order of a schedule. -/
def Reading.run {σ : Type} (loc : Locator σ) (fuel : Nat) (root : Val) (w : Reading σ) (schedule : List (Use σ)) : Reading σ :=
  schedule.foldl (Reading.use loc fuel root) w

/-- How often a schedule asks iterator `i`. -/
def asks {σ : Type} (i : Nat) : List (Use σ) → Nat
  | [] => 0
  | .next j :: s => (if j = i then 1 else 0) + asks i s
  | .other _ :: s => asks i s

end PdfReader
