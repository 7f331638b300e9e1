/-
  C122: procedure sets.
-/
import Verif.Spec.ProcSets
import Verif.Props.File

namespace PdfReader

open Spec

section
variable {σ : Type} {loc : Locator σ} {I : σ → Prop}

/-- The procedure sets of the resources of a page are those of the page and of its ancestors. -/
theorem C122_union {store : Store} (hd : Delivers loc I store) (c : Option Bytes) (page : List (Bytes × Obj)) (chain : List (List (Bytes × Category)))
    (ha : Ancestry store page chain) (hc : Consistent chain) :
    ∃ kw, (∀ name, name ∈ procsIn kw b!"ProcSet" ↔ ProcSetNames chain name) ∧ (∀ cat name, resource kw cat name = nearest chain cat name) ∧
      ∃ F, ∀ fuel, F ≤ fuel → Gives I (fromPage loc fuel (.dict c page) []) kw := by
  obtain ⟨rs, h1, h2⟩ := stack_gives (loc := loc) (I := I) hd ha
  obtain ⟨isProcs, hp⟩ := hc
  obtain ⟨kw, _, k2, k3, k4⟩ := layers_merge_all (loc := loc) (I := I) hd isProcs h1 fun own ho e he => by
    have := hp own ho e he
    unfold KindOf
    cases h : e.2 <;> rw [h] at this <;> exact this
  refine ⟨kw, fun name => ?_, k2, ((h2 c []).and k4).mono fun f hf => gives_bind hf.1 hf.2⟩
  rw [k3]
  unfold procsDefined ProcSetNames
  simp only [List.mem_flatMap, List.mem_reverse]
  constructor
  · rintro ⟨own, ho, ⟨k, c⟩, he, hm⟩
    by_cases hk : k = b!"ProcSet"
    · subst hk
      rw [if_pos rfl] at hm
      cases c with
      | named vs => cases hm
      | procs ns => exact ⟨own, ho, ns, he, hm⟩
    · rw [if_neg hk] at hm
      cases hm
  · rintro ⟨own, ho, ns, he, hm⟩
    exact ⟨own, ho, _, he, by rw [if_pos rfl]; exact hm⟩
end

variable {filtered : List (Bytes × Obj) → Bytes → Res Bytes}

/-- In a document which was opened, whatever objects of the file were resolved before. -/
theorem C122_file (secure : Opened → Obj → Res Opened) (clamps : Bool) (file v : Bytes) (k off : Nat) (r : Revision) (rs : List Revision)
    (content : Content) (hh : HeaderAt file v k) (hs : StartsAt file off) (hb : clamps = true ∨ 1024 ≤ file.length)
    (hsec : SectionsFrom (fun d raw data => filtered d raw = .ok data) file off (r :: rs))
    (hc : Holds (fun d raw data => filtered d raw = .ok data) AsIs file k (r :: rs) content) (henc : NoEntry r.dict b!"Encrypt")
    (a b : Nat) (catalog : List (Bytes × Obj)) (c : Option Bytes) (hroot : dictGet r.dict b!"Root" = some (.ref a b))
    (hcat : content a b = some (.dict catalog)) (hcls : DictKind catalog c)
    (page : List (Bytes × Obj)) (chain : List (List (Bytes × Category))) (ha : Ancestry content page chain) (hcons : Consistent chain) :
    ∃ F, ∀ fuel, F ≤ fuel → ∃ doc, openDocument filtered secure clamps fuel file = .ok (doc, .dict c catalog) ∧
      ∀ history : List (Nat × Nat), (∀ k ∈ history, content k.1 k.2 ≠ none) →
        ∃ kw, (∀ name, name ∈ procsIn kw b!"ProcSet" ↔ ProcSetNames chain name) ∧ ∃ F', ∀ fuel', F' ≤ fuel' →
          (fromPage (locate doc.env fuel) fuel' (asPage page) [] (asked doc.env fuel history doc.st)).1 = .ok kw := by
  obtain ⟨F, hF⟩ := openDocument_opens secure clamps file v k off r rs content hh hs hb hsec hc henc a b catalog c hroot hcat hcls
  refine ⟨F, fun fuel hf => ?_⟩
  obtain ⟨doc, e, _, _, I, hI, hd⟩ := hF fuel hf
  refine ⟨doc, e, fun history hh => ?_⟩
  obtain ⟨kw, h1, _, F', h2⟩ := C122_union (hd fuel hf) (some b!"Page") page chain ha hcons
  exact ⟨kw, h1, F', fun fuel' hf' => (h2 fuel' hf' _ (asked_keeps (hd fuel hf) history _ hI hh)).1⟩

/-- A page with `[/PDF /Text]` whose parent has `[/PDF /ImageC]`. -/
def procPage : List (Bytes × Obj) :=
  [(b!"Type", .name b!"Page"), (b!"Resources", .dict [(b!"ProcSet", .arr [.name b!"PDF", .name b!"Text"])]),
    (b!"Parent", .dict [(b!"Resources", .dict [(b!"ProcSet", .arr [.name b!"PDF", .name b!"ImageC"])])])]

theorem procPage_chain (store : Store) : Ancestry store procPage [[(b!"ProcSet", .procs [b!"PDF", b!"Text"])], [(b!"ProcSet", .procs [b!"PDF", b!"ImageC"])]] := by
  have arr : ∀ ns : List Bytes, Reads store (.arr (ns.map .name)) (.arr (ns.map fun n => .atom (.name n))) := by
    intro ns
    induction ns with
    | nil => exact .nil
    | cons n ns ih => exact .cons _ _ _ _ (.atom _ trivial) ih
  have own : ∀ ns : List Bytes, CategoriesAre store [(b!"ProcSet", .arr (ns.map .name))] [(b!"ProcSet", .procs ns)] := fun ns => .cons _ _ _ _ _ _ (arr ns) (.procs ns) .nil
  refine .child _ _ none [(b!"Resources", .dict [(b!"ProcSet", .arr [.name b!"PDF", .name b!"ImageC"])])] _ ?_ ⟨_, rfl, .dict _ _ (.untyped rfl)⟩ (by simp) (.top _ _ ?_ (.inl rfl))
  · exact .present none _ _ ⟨_, rfl, .dict _ _ (.untyped rfl)⟩ (own [b!"PDF", b!"Text"]) (by decide)
  · exact .present none _ _ ⟨_, rfl, .dict _ _ (.untyped rfl)⟩ (own [b!"PDF", b!"ImageC"]) (by decide)

example : Consistent [[(b!"ProcSet", .procs [b!"PDF", b!"Text"])], [(b!"ProcSet", .procs [b!"PDF", b!"ImageC"])]] :=
  ⟨fun _ => true, fun own ho e he => by
    simp only [List.mem_cons, List.not_mem_nil, or_false] at ho
    rcases ho with rfl | rfl <;> (rw [List.mem_singleton] at he; subst he; rfl)⟩

example (name : Bytes) : ProcSetNames [[(b!"ProcSet", .procs [b!"PDF", b!"Text"])], [(b!"ProcSet", .procs [b!"PDF", b!"ImageC"])]] name ↔
    name ∈ [b!"PDF", b!"Text", b!"ImageC"] := by
  unfold ProcSetNames
  constructor
  · rintro ⟨own, ho, ns, he, hm⟩
    simp only [List.mem_cons, List.not_mem_nil, or_false] at ho
    rcases ho with rfl | rfl <;> (rw [List.mem_singleton] at he; cases he; simp only [List.mem_cons, List.not_mem_nil, or_false] at hm ⊢; rcases hm with h | h <;> simp [h])
  · intro h
    simp only [List.mem_cons, List.not_mem_nil, or_false] at h
    rcases h with rfl | rfl | rfl
    · exact ⟨_, List.mem_cons_self, _, List.mem_cons_self, by decide⟩
    · exact ⟨_, List.mem_cons_self, _, List.mem_cons_self, by decide⟩
    · exact ⟨_, List.mem_cons_of_mem _ List.mem_cons_self, _, List.mem_cons_self, by decide⟩

end PdfReader
