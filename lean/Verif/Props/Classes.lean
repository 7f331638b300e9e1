/-
  C142: objects are of the class which their Type names.
-/
import Verif.Spec.Classes
import Verif.Props.Objects

namespace PdfReader

open Spec

variable {σ : Type} {I : σ → Prop} {loc : Locator σ}

theorem stands_reads {store : Store} {e o : Obj} {v : Val} (h : Stands store e o) (hr : ∀ n g, o ≠ .ref n g) (hv : Reads store o v) : Reads store e v := by
  rcases h with rfl | ⟨n, g, rfl, h⟩
  · exact hv
  · exact .ref n g o v h hr hv

theorem listed_types {t : Bytes} (h : t ∈ dictionaryTypes) (h1 : t ≠ b!"FontDescriptor") (h2 : t ≠ b!"Bead") : t ∈ dictTypes := by
  have : ∀ t ∈ dictionaryTypes, t = b!"FontDescriptor" ∨ t = b!"Bead" ∨ t ∈ dictTypes := by decide +kernel
  rcases this t h with h | h | h
  · exact absurd h h1
  · exact absurd h h2
  · exact h

theorem typed_reads {store : Store} {e : Obj} {ds : List (Bytes × Obj)} {t : Bytes} (h : Typed store e ds t) (ht : t ∈ dictionaryTypes) (h1 : t ≠ b!"FontDescriptor")
    (h2 : t ≠ b!"Bead") : Reads store e (.dict (some t) ds) :=
  stands_reads h.stands (fun _ _ h => by cases h) (.dict ds (some t) (.typed t h.type (listed_types ht h1 h2)))

/-- C142, dictionaries: an entry which is a dictionary, or refers to one, is delivered as an object of the class its Type names: for every Type which has a
class, but font descriptors and article beads. -/
theorem C142_dictionaries_partial {store : Store} (hd : Delivers loc I store) (c : Option Bytes) (es : List (Bytes × Obj)) (k : Bytes) (e : Obj) (ds : List (Bytes × Obj))
    (t : Bytes) (he : dictGet es k = some e) (h : Typed store e ds t) (ht : t ∈ dictionaryTypes) (h1 : t ≠ b!"FontDescriptor") (h2 : t ≠ b!"Bead") :
    ∃ F, ∀ fuel, F ≤ fuel → Gives I (attr loc fuel (.dict c es) k) (.dict (some t) ds) :=
  C75_entries hd c es k _ ⟨e, he, typed_reads h ht h1 h2⟩

/-- C142, arrays: so are the elements of an array. -/
theorem C142_arrays_partial {store : Store} (hd : Delivers loc I store) (c : Option Bytes) (es : List (Bytes × Obj)) (k : Bytes) (a : Obj)
    (items : List (Obj × List (Bytes × Obj) × Bytes)) (he : dictGet es k = some a) (ha : Stands store a (.arr (items.map (·.1))))
    (h : ∀ i ∈ items, Typed store i.1 i.2.1 i.2.2 ∧ i.2.2 ∈ dictionaryTypes ∧ i.2.2 ≠ b!"FontDescriptor" ∧ i.2.2 ≠ b!"Bead") :
    ∃ F, ∀ fuel, F ≤ fuel → Gives I (attr loc fuel (.dict c es) k) (.arr (items.map fun i => .dict (some i.2.2) i.2.1)) := by
  refine C75_entries hd c es k _ ⟨a, he, stands_reads ha (fun _ _ h => by cases h) ?_⟩
  clear ha he
  induction items with
  | nil => exact .nil
  | cons i is ih =>
    obtain ⟨h1, h2, h3, h4⟩ := h i (by simp)
    exact .cons _ _ _ _ (typed_reads h1 h2 h3 h4) (ih fun j hj => h j (by simp [hj]))

/-- C142, streams: images, forms, metadata and CMaps. -/
theorem C142_streams_partial {store : Store} (hd : Delivers loc I store) (c : Option Bytes) (es : List (Bytes × Obj)) (k : Bytes) (e : Obj) (d : List (Bytes × Obj)) (data : Bytes)
    (t : Bytes) (s : Option Bytes) (cls : Bytes) (he : dictGet es k = some e) (h : Stands store e (.stream d data)) (hl : (t, s, cls) ∈ streamTypes) (ht : dictGet d b!"Type" = some (.name t))
    (hs : ∀ u, s = some u → dictGet d b!"Subtype" = some (.name u)) (hn : t ≠ b!"ObjStm") :
    ∃ F, ∀ fuel, F ≤ fuel → Gives I (attr loc fuel (.dict c es) k) (.stream cls d data) := by
  refine C75_entries hd c es k _ ⟨e, he, stands_reads h (fun _ _ h => by cases h) (.stream d data cls ?_)⟩
  simp only [streamTypes, List.mem_cons, List.not_mem_nil, or_false, Prod.mk.injEq] at hl
  rcases hl with ⟨rfl, rfl, rfl⟩ | ⟨rfl, rfl, rfl⟩ | ⟨rfl, rfl, rfl⟩ | ⟨rfl, rfl, rfl⟩ | ⟨rfl, rfl, rfl⟩
  · exact .xobject _ ht (hs _ rfl) (by decide)
  · exact .xobject _ ht (hs _ rfl) (by decide)
  · exact .typed _ ht (by decide)
  · exact .typed _ ht (by decide)
  · exact absurd rfl hn

/-- C142: a dictionary with a Type which has no class, or without Type, is a plain dictionary. -/
theorem C142_others {store : Store} (hd : Delivers loc I store) (c : Option Bytes) (es : List (Bytes × Obj)) (k : Bytes) (e : Obj) (ds : List (Bytes × Obj))
    (he : dictGet es k = some e) (h : Stands store e (.dict ds)) (ht : dictGet ds b!"Type" = none ∨ ∃ t, dictGet ds b!"Type" = some (.name t) ∧ t ∉ dictionaryTypes ∧
      t ∉ [b!"CIDFont", b!"FontDescriptior", b!"Bread", b!"Sound", b!"LastModified"]) :
    ∃ F, ∀ fuel, F ≤ fuel → Gives I (attr loc fuel (.dict c es) k) (.dict none ds) := by
  refine C75_entries hd c es k _ ⟨e, he, stands_reads h (fun _ _ h => by cases h) (.dict ds none ?_)⟩
  rcases ht with ht | ⟨t, ht, h1, h2⟩
  · exact .untyped ht
  · refine .other t ht fun hm => ?_
    have : ∀ t ∈ dictTypes, t ∈ dictionaryTypes ∨ t ∈ [b!"CIDFont", b!"FontDescriptior", b!"Bread", b!"Sound", b!"LastModified"] := by decide +kernel
    exact (this t hm).elim h1 h2

/-- The property is false of the code: font descriptors and beads are plain dictionaries, object streams plain streams (the tables have `FontDescriptior`, `Bread` and
`ObjectStream`), whatever else the document holds. -/
theorem C142_counterexample {store : Store} (hd : Delivers loc I store) (c : Option Bytes) (es : List (Bytes × Obj)) (k : Bytes) (e : Obj) (ds : List (Bytes × Obj)) (data : Bytes)
    (he : dictGet es k = some e) :
    (∀ t, t = b!"FontDescriptor" ∨ t = b!"Bead" → Typed store e ds t → t ∈ dictionaryTypes ∧ ∃ F, ∀ fuel, F ≤ fuel → Gives I (attr loc fuel (.dict c es) k) (.dict none ds)) ∧
    (Stands store e (.stream ds data) → dictGet ds b!"Type" = some (.name b!"ObjStm") →
      ∃ F, ∀ fuel, F ≤ fuel → Gives I (attr loc fuel (.dict c es) k) (.stream b!"StreamBasedObject" ds data)) := by
  refine ⟨fun t ht h => ⟨?_, C75_entries hd c es k _ ⟨e, he, stands_reads h.stands (fun _ _ h => by cases h) (.dict ds none (.other t h.type ?_))⟩⟩, fun h ht =>
    C75_entries hd c es k _ ⟨e, he, stands_reads h (fun _ _ h => by cases h) (.stream ds data _ (.other _ ht (by decide)))⟩⟩
  · rcases ht with rfl | rfl <;> decide
  · rcases ht with rfl | rfl <;> decide +kernel

/-- A dictionary whose Type is a reference cannot be read at all. -/
theorem C142_type_reference_counterexample (loc : Locator σ) (c : Option Bytes) (es ds : List (Bytes × Obj)) (k : Bytes) (n g : Nat) (he : dictGet es k = some (.dict ds))
    (ht : dictGet ds b!"Type" = some (.ref n g)) (fuel : Nat) (hf : 2 ≤ fuel) (s : σ) : (attr loc fuel (.dict c es) k s).1 = .error .typeError := by
  obtain ⟨f, rfl⟩ : ∃ f, fuel = f + 2 := ⟨fuel - 2, by omega⟩
  show (entry loc (f + 2) es k s).1 = _
  unfold entry
  rw [he]
  dsimp only
  unfold build
  dsimp only
  unfold factory
  dsimp only
  unfold dictClass
  rw [ht]
  rfl

/-- The premises can be met: an annotation by reference in an array, and a font descriptor. -/
def annotStore : Store := fun n _ =>
  if n = 1 then some (.dict [(b!"Annots", .arr [.ref 2 0, .dict [(b!"Type", .name b!"Annot")]]), (b!"FontDescriptor", .ref 3 0)])
  else if n = 2 then some (.dict [(b!"Type", .name b!"Annot"), (b!"Subtype", .name b!"Link")]) else if n = 3 then some (.dict [(b!"Type", .name b!"FontDescriptor")]) else none

example : (∀ i ∈ [(Obj.ref 2 0, [(b!"Type", Obj.name b!"Annot"), (b!"Subtype", .name b!"Link")], b!"Annot"), (.dict [(b!"Type", .name b!"Annot")], [(b!"Type", .name b!"Annot")], b!"Annot")],
      Typed annotStore i.1 i.2.1 i.2.2 ∧ i.2.2 ∈ dictionaryTypes ∧ i.2.2 ≠ b!"FontDescriptor" ∧ i.2.2 ≠ b!"Bead") ∧
    Typed annotStore (.ref 3 0) [(b!"Type", .name b!"FontDescriptor")] b!"FontDescriptor" := by
  refine ⟨fun i hi => ?_, ⟨.inr ⟨3, 0, rfl, rfl⟩, rfl⟩⟩
  simp only [List.mem_cons, List.not_mem_nil, or_false] at hi
  rcases hi with rfl | rfl
  · exact ⟨⟨.inr ⟨2, 0, rfl, rfl⟩, rfl⟩, by decide, by decide, by decide⟩
  · exact ⟨⟨.inl rfl, rfl⟩, by decide, by decide, by decide⟩

end PdfReader
