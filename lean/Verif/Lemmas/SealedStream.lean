/-
  Files written encrypted, with an object stream and a cross-reference stream.
-/
import Verif.Lemmas.WriteSealed
import Verif.Lemmas.WriteStream
import Verif.Spec.SealedStream

namespace PdfReader

open Spec

section
variable {X : Ciphers} {key : Bytes} {m : Method} {iv : Nat → Nat → Bytes} {c : Compressed} {decoded : List (Bytes × Obj) → Bytes → Bytes → Prop}

theorem seal_packData : (c.seal X key m iv).packData = c.packData := rfl

theorem seal_packItem : (c.seal X key m iv).packItem = sealItem X key m iv c.packItem := by
  have e : (c.seal X key m iv).encode c.packData = sealData X key m (iv c.pack 0) c.pack 0 (c.encode c.packData) := if_pos rfl
  show FileItem.mk c.pack 0 (.stream (c.seal X key m iv).packDict ((c.seal X key m iv).encode c.packData)) = _
  rw [e]
  unfold Compressed.packDict
  rw [seal_packData, e]
  rfl

theorem seal_body : (c.seal X key m iv).body = c.body.map (sealItem X key m iv) := by
  unfold Compressed.body
  rw [seal_packItem, List.map_append]
  rfl

theorem packData_head (c : Compressed) : ∃ t, c.packData = (10 : Byte) :: t := by
  unfold Compressed.packData
  cases c.members with
  | nil => exact ⟨_, rfl⟩
  | cons x xs => exact ⟨_, rfl⟩

theorem row_typ (c : Compressed) (n : Nat) : (c.row n).typ = 0 ∨ (c.row n).typ = 1 ∨ (c.row n).typ = 2 := by
  unfold Compressed.row
  split
  · exact Or.inr (Or.inl rfl)
  · split
    · exact Or.inr (Or.inr rfl)
    · exact Or.inl rfl

theorem xrefData_head (c : Compressed) : ∃ b t, c.xrefData = b :: t ∧ b ≠ 10 := by
  unfold Compressed.xrefData Compressed.rows Compressed.size
  rw [List.range_succ_eq_map, List.map_cons, List.flatMap_cons]
  have : ∃ b t, Row.text 1 4 4 (c.row 0) = b :: t ∧ b ≠ 10 := by
    unfold Row.text
    rcases row_typ c 0 with h | h | h <;> rw [h] <;> exact ⟨_, _, rfl, by decide⟩
  obtain ⟨b, t, e, hb⟩ := this
  rw [e]
  exact ⟨b, _, rfl, hb⟩

/-- The data of the cross-reference stream stay as they are. -/
theorem seal_xref : (c.seal X key m iv).encode (c.seal X key m iv).xrefData = c.encode (c.seal X key m iv).xrefData := by
  refine if_neg fun h => ?_
  obtain ⟨t, h1⟩ := packData_head c
  obtain ⟨b, t', h2, hb⟩ := xrefData_head (c.seal X key m iv)
  rw [h1, h2] at h
  injection h with h _
  exact hb h

theorem seal_compressed_ok (hc : c.Ok) (hlen : (c.seal X key m iv).write.length < 256 ^ 4) : (c.seal X key m iv).Ok where
  vals := by
    intro i hi
    obtain ⟨j, hj, rfl⟩ := List.mem_map.mp hi
    exact seal_writable (hc.vals j hj)
  plain := by
    intro i hi e data he v hv
    obtain ⟨j, hj, rfl⟩ := List.mem_map.mp hi
    unfold sealItem at he
    dsimp only at he
    cases hval : j.val with
    | stream es data' =>
      rw [hval] at he
      cases he
      exact hc.plain j hj es data' hval v (mem_dictSet_other (by decide) hv)
    | _ => rw [hval] at he; cases he
  mems := hc.mems
  nums := by
    show ((c.items.map _).map _ ++ _).Nodup
    rw [List.map_map]
    exact hc.nums
  gens := by
    intro i hi
    obtain ⟨j, hj, rfl⟩ := List.mem_map.mp hi
    exact hc.gens j hj
  count := hc.count
  number := hc.number
  length := hlen
  keys := hc.keys
  ents := hc.ents
  reserved := hc.reserved
  howKeys := hc.howKeys
  howOnly := hc.howOnly
  howEnts := hc.howEnts

theorem opened_writable {o : Obj} (h : Writable o) : openedObj m o = o := by
  cases o with
  | stream es data => exact h.elim
  | _ => rfl

theorem not_xref (hc : c.Ok) : (∀ i ∈ c.body, i.num ≠ c.xref) ∧ ∀ x ∈ c.members, x.1 ≠ c.xref := by
  have hn := hc.nums
  rw [List.nodup_append, List.nodup_append] at hn
  obtain ⟨_, ⟨_, h3, h4⟩, h5⟩ := hn
  refine ⟨fun i hi e => ?_, fun x hx e => h4 x.1 (List.mem_map.mpr ⟨x, hx, rfl⟩) c.xref (by simp) e⟩
  unfold Compressed.body at hi
  rcases List.mem_append.mp hi with hi | hi
  · exact h5 i.num (List.mem_map.mpr ⟨i, hi, rfl⟩) c.xref (by simp) e
  · rw [List.mem_singleton] at hi
    subst hi
    have e : c.pack = c.xref := e
    rw [e] at h3
    simp at h3

theorem opened_item (hc : c.Ok) {i : FileItem} (h : i ∈ c.body) : c.openedContent m i.num i.gen = some (openedObj m i.val) := by
  unfold Compressed.openedContent
  rw [if_neg ((not_xref hc).1 i h), content_item hc (List.mem_append_left _ h)]
  rfl

theorem opened_member (hc : c.Ok) {x : Nat × Obj} (h : x ∈ c.members) : c.openedContent m x.1 0 = some x.2 := by
  unfold Compressed.openedContent
  rw [if_neg ((not_xref hc).2 x h), content_member hc h, Option.map_some, opened_writable (hc.mems x h).1]

theorem opened_cases (hc : c.Ok) {n g : Nat} {o : Obj} (h : c.openedContent m n g = some o) :
    (∃ i ∈ c.body, i.num = n ∧ i.gen = g ∧ openedObj m i.val = o) ∨ (g = 0 ∧ (n, o) ∈ c.members) := by
  unfold Compressed.openedContent at h
  split at h
  · cases h
  · rename_i hx
    cases hcnt : c.content n g with
    | none => rw [hcnt] at h; cases h
    | some x =>
      rw [hcnt] at h
      cases h
      rcases content_cases hcnt with ⟨i, hi, rfl, rfl, rfl⟩ | ⟨rfl, hm⟩
      · rcases List.mem_append.mp hi with hi | hi
        · exact Or.inl ⟨i, hi, rfl, rfl, rfl⟩
        · rw [List.mem_singleton] at hi
          subst hi
          exact absurd rfl hx
      · rw [opened_writable (hc.mems _ hm).1]
        exact Or.inr ⟨rfl, hm⟩

theorem item_stored (hc : c.Ok) {d : List (Bytes × Obj)} (hm : MethodIs d m) (hse : c.Sealable d) (hiv : ∀ n g, (iv n g).length = 16) {i : FileItem} (h : i ∈ c.body) :
    Stored X key d i.num i.gen (openedObj m i.val) (sealItem X key m iv i).val ∧ WritableValue (sealItem X key m iv i).val := by
  unfold Compressed.body at h
  rcases List.mem_append.mp h with h | h
  · exact ⟨seal_stored (hiv _ _) hm (hse.streams i h) (hse.strings i h) (hse.nums i h) (by have := hc.gens i h; omega), seal_writable (hc.vals i h)⟩
  · rw [List.mem_singleton] at h
    subst h
    refine ⟨seal_stored (hiv _ _) hm (fun es data e => ?_) ⟨fun s e => (by cases e), fun s e => (by cases e)⟩ (by have := hc.number; exact this) (by show 0 < _; omega), seal_writable (pack_writable hc)⟩
    cases e
    right; right; right; left
    rw [(pack_get c).1]
    decide

theorem opened_defs (hc : c.Ok) (hdec : Decodes decoded c.how fun x => opened m (c.encode x)) {i : FileItem} (h : i ∈ c.body) :
    ∃ defs, Defines decoded i.num i.gen (openedObj m i.val) defs ∧ (∀ x ∈ defs, c.openedContent m x.1.1 x.1.2 = some x.2) ∧
      (i = c.packItem → ∀ x ∈ c.members, ((x.1, 0), x.2) ∈ defs) := by
  rcases List.mem_append.mp h with hi | hi
  · have hn : NoPack (openedObj m i.val) := opened_noPack (item_plain hc hi)
    refine ⟨_, .plain _ hn, fun x hx => ?_, ?_⟩
    · rw [List.mem_singleton] at hx
      subst hx
      exact opened_item hc h
    · rintro rfl
      exact absurd (item_plain hc hi _ _ _ rfl (pack_get c).1) (by simp)
  · rw [List.mem_singleton] at hi
    subst hi
    have hd := pack_defines_of (decoded := decoded) (c := { c with encode := fun x => opened m (c.encode x) }) hc.mems hdec
    refine ⟨_, hd, fun x hx => ?_, fun _ x hx => List.mem_cons_of_mem _ (List.mem_map.mpr ⟨x, hx, rfl⟩)⟩
    rcases List.mem_cons.mp hx with rfl | hx
    · exact opened_item hc h
    · obtain ⟨y, hy, rfl⟩ := List.mem_map.mp hx
      exact opened_member hc hy

theorem sealed_text {file : Bytes} {revs : List Revision} {d : List (Bytes × Obj)} {K : Content} : ∀ (is : List FileItem) (s : Bytes), Sep s →
    (∀ i ∈ is, WritableValue (sealItem X key m iv i).val ∧ Stored X key d i.num i.gen (openedObj m i.val) (sealItem X key m iv i).val ∧
      K i.num i.gen = some (openedObj m i.val) ∧ ∃ defs, Defines decoded i.num i.gen (openedObj m i.val) defs) →
    ∃ es body tl, s ++ showBody (is.map (sealItem X key m iv)) = body ++ tl ∧ FileBody decoded (Stored X key d) file revs K es body ∧
      ∀ i ∈ is, ∃ defs ∈ es, Defines decoded i.num i.gen (openedObj m i.val) defs
  | [], s, _, _ => ⟨[], [], s ++ showBody [], rfl, .nil, fun _ h => by cases h⟩
  | i :: is, s, hs, h => by
    obtain ⟨hw, hst, hv, defs, hd⟩ := h i (by simp)
    obtain ⟨es, body, tl, e, hb, hm⟩ := sealed_text is [10] sep_lf (fun j hj => h j (by simp [hj]))
    refine ⟨defs :: es, s ++ (showItem (sealItem X key m iv i) ++ body), tl, ?_,
      .obj i.num i.gen (openedObj m i.val) _ defs es s (showItem (sealItem X key m iv i)) body hs (Or.inl (item_text (sealItem X key m iv i) hw)) hst hv hd hb, ?_⟩
    · rw [List.map_cons, showBody]
      have : (10 :: showBody (is.map (sealItem X key m iv)) : Bytes) = body ++ tl := e
      rw [this]
      simp
    · intro j hj
      rcases List.mem_cons.mp hj with rfl | hj
      · exact ⟨defs, by simp, hd⟩
      · obtain ⟨defs', h1, h2⟩ := hm j hj
        exact ⟨defs', by simp [h1], h2⟩

/-- What a file written encrypted, with an object stream, holds. -/
theorem holds_sealed_compressed (hc : c.Ok) (hlen : (c.seal X key m iv).write.length < 256 ^ 4) (hdec : Decodes decoded c.how fun x => opened m (c.encode x))
    (hfun : ∀ d raw a b, decoded d raw a → decoded d raw b → a = b) {d : List (Bytes × Obj)} (hm : MethodIs d m) (hse : c.Sealable d)
    (hiv : ∀ n g, (iv n g).length = 16) :
    Spec.Holds decoded (Stored X key d) (c.seal X key m iv).write 0 [revC (c.seal X key m iv)] (c.openedContent m) := by
  have hc' := seal_compressed_ok hc hlen
  have hdefs := fun {i} (h : i ∈ c.body) => opened_defs (m := m) hc hdec h
  refine ⟨?_, ⟨c.body.map (fun i => (i.num, i.gen)) ++ c.members.map fun m => (m.1, 0), ?_⟩, ?_, ?_⟩
  · obtain ⟨es, body, tl, e, hb, hmm⟩ := sealed_text (decoded := decoded) (X := X) (key := key) (m := m) (iv := iv) (d := d) (K := c.openedContent m)
      (file := (c.seal X key m iv).write) (revs := [revC (c.seal X key m iv)]) c.body fileHeader sep_header
      (fun i hi => ⟨(item_stored hc hm hse hiv hi).2, (item_stored hc hm hse hiv hi).1, opened_item hc hi, by obtain ⟨d, h, _⟩ := hdefs hi; exact ⟨d, h⟩⟩)
    obtain ⟨rest, hrest⟩ := body_at (c.seal X key m iv).body (c.seal X key m iv).xrefItem []
    refine ⟨es, body, tl ++ (showItem (c.seal X key m iv).xrefItem ++ rest ++ (b!"startxref" ++ ([10] ++ (showNat (c.seal X key m iv).offset ++ ([10] ++ (b!"%%EOF" ++ [10])))))),
      ?_, hb, fun n g o h => ?_⟩
    · rw [List.drop_zero]
      unfold Compressed.write
      rw [hrest, seal_body, ← List.append_assoc body tl, ← e]
      simp
    · rcases opened_cases hc h with ⟨i, hi, rfl, rfl, rfl⟩ | ⟨rfl, hmem⟩
      · left
        have hi' : sealItem X key m iv i ∈ (c.seal X key m iv).body ++ [(c.seal X key m iv).xrefItem] :=
          List.mem_append_left _ (by rw [seal_body]; exact List.mem_map.mpr ⟨i, hi, rfl⟩)
        obtain ⟨a, b, e⟩ := List.append_of_mem hi'
        obtain ⟨rest, hr⟩ := write_at _ a _ b e
        obtain ⟨defs, hd, _⟩ := hdefs hi
        obtain ⟨hst, hw⟩ := item_stored (X := X) (key := key) hc hm hse hiv hi
        have hu : (revC (c.seal X key m iv)).inUse i.num = some (fileHeader.length + (showBody a).length, i.gen) := inUse_item hc' (i := sealItem X key m iv i) e
        exact ⟨_, _, rest, _, defs, ⟨[], _, [], rfl, (fun q hq => by simp at hq), hu⟩, hr, Or.inl (item_text _ hw), hst, hd⟩
      · right
        refine ⟨?_, ?_⟩
        · intro r hr off
          rw [List.mem_singleton] at hr
          subst hr
          rw [inUse_member hc' (List.mem_map.mpr ⟨_, hmem, rfl⟩)]
          simp
        · have hp : c.packItem ∈ c.body := by simp [Compressed.body]
          obtain ⟨defs, h1, h2⟩ := hmm _ hp
          obtain ⟨defs', h3, _, h4⟩ := hdefs hp
          rw [defines_unique hfun h2 h3] at h1
          exact ⟨_, h1, h4 rfl _ hmem⟩
  · intro n g h
    cases hcnt : c.openedContent m n g with
    | none => exact absurd hcnt h
    | some o =>
      rcases opened_cases hc hcnt with ⟨i, hi, rfl, rfl, rfl⟩ | ⟨rfl, hmem⟩
      · exact List.mem_append_left _ (List.mem_map.mpr ⟨i, hi, rfl⟩)
      · exact List.mem_append_right _ (List.mem_map.mpr ⟨_, hmem, rfl⟩)
  · intro n g o defs h hd x hx
    rcases opened_cases hc h with ⟨i, hi, rfl, rfl, rfl⟩ | ⟨rfl, hmem⟩
    · obtain ⟨defs', h1, h2, _⟩ := hdefs hi
      rw [defines_unique hfun hd h1] at hx
      exact h2 x hx
    · have hn : NoPack o := by
        rintro e data v rfl
        exact absurd (hc.mems _ hmem).1 (by simp [Writable])
      rw [defines_plain hn hd, List.mem_singleton] at hx
      subst hx
      exact h
  · intro r hr n g v o ho hcnt
    rw [List.mem_singleton] at hr
    subst hr
    cases ho
    have : c.openedContent m c.xref 0 = none := if_pos rfl
    rw [show (c.seal X key m iv).xref = c.xref from rfl, this] at hcnt
    cases hcnt

theorem sections_sealed (hc : (c.seal X key m iv).Ok) (hdec : Decodes decoded c.how c.encode) :
    SectionsFrom decoded (c.seal X key m iv).write (c.seal X key m iv).offset [revC (c.seal X key m iv)] := by
  obtain ⟨_, _, _, _, g5, g6, g7⟩ := xref_get hc
  refine Or.inr (.oldest _ _ (xref_at_of hc ?_) g5)
  rw [seal_xref]
  exact hdec _ _ g6 g7
end

end PdfReader
