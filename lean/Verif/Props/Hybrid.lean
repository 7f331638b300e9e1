/- Hybrid-reference files: a cross-reference table for old readers, and a cross-reference stream, named by XRefStm in the trailer, which lists the objects in
object streams as well. -/
import Verif.Props.Layout
import Verif.Props.Mixed

namespace PdfReader
open Spec

section
variable {filtered : List (Bytes × Obj) → Bytes → Res Bytes} {decoded : List (Bytes × Obj) → Bytes → Bytes → Prop} {c : Compressed}

theorem hybrid_shape (hc : c.Ok) (hg : ∀ i ∈ c.items, i.gen < 10 ^ 5) (hx : b!"XRefStm" ∉ c.trailer.map (·.1)) : Draft.Shape (hybrid c) := by
  obtain ⟨h1, _, h3⟩ := positions_nums hc
  rw [h3] at h1
  refine ⟨by simp [hybrid], h1, ?_, ?_, ?_, ?_⟩
  · intro i hi
    rcases body_cases c hi with hi | rfl | rfl
    · exact hg i hi
    · show 0 < 10 ^ 5; decide
    · show 0 < 10 ^ 5; decide
  · show ((c.trailer ++ _).map (·.1)).Nodup
    rw [List.map_append, List.nodup_append]
    refine ⟨hc.keys, by simp, ?_⟩
    intro a ha b hb e
    simp at hb
    subst e
    rcases hb with rfl | rfl
    · exact hc.reserved _ (by simp) ha
    · exact hx ha
  · show WritableEnts (c.trailer ++ _)
    exact writableEnts_append _ _ hc.ents (by simp [WritableEnts, Writable])
  · show b!"Prev" ∉ (c.trailer ++ _).map (·.1)
    rw [List.map_append, List.mem_append]
    rintro (h | h)
    · exact hc.reserved _ (by simp) h
    · simp at h

theorem hybrid_write (c : Compressed) : writeHybrid c = fileHeader ++ (showBody (c.body ++ [c.xrefItem]) ++ ((hybrid c).show fileHeader.length none).drop (showBody (c.body ++ [c.xrefItem])).length) := by
  unfold writeHybrid writeFile showDrafts showDrafts
  rw [List.append_nil]
  unfold Draft.show
  rw [show (hybrid c).items = c.body ++ [c.xrefItem] from rfl, List.drop_left]

theorem hybrid_member (hc : c.Ok) {n : Nat} (h : n ∈ c.members.map (·.1)) (off g : Nat) : (revOf (hybrid c) fileHeader.length none).inUse n ≠ some (off, g) := by
  intro e
  obtain ⟨i, hi, e1, _⟩ := inUse_from e
  obtain ⟨_, h2, h3⟩ := positions_nums hc
  refine h2 n ?_ h
  rw [h3]
  exact List.mem_map.mpr ⟨i, hi, e1⟩

theorem hybrid_at (c : Compressed) : ∀ (a : List FileItem) (i : FileItem) (b : List FileItem), c.body ++ [c.xrefItem] = a ++ i :: b →
    ∃ rest, (writeHybrid c).drop (fileHeader.length + (showBody a).length) = showItem i ++ rest := by
  intro a i b e
  obtain ⟨rest, h⟩ := body_at a i b
  rw [hybrid_write]
  rw [e, h, ← List.drop_drop, List.drop_left, List.append_assoc, List.drop_left, List.append_assoc]
  exact ⟨_, rfl⟩

theorem holds_hybrid (hc : c.Ok) (hg : ∀ i ∈ c.items, i.gen < 10 ^ 5) (hx : b!"XRefStm" ∉ c.trailer.map (·.1)) (hdec : Decodes decoded c.how c.encode)
    (hfun : ∀ d raw a b, decoded d raw a → decoded d raw b → a = b) :
    Spec.Holds decoded AsIs (writeHybrid c) 0 [revOf (hybrid c) fileHeader.length none] c.content := by
  have hdefs := fun {i} (h : i ∈ c.body ++ [c.xrefItem]) => item_defs hc hdec h
  refine ⟨?_, ⟨(c.body ++ [c.xrefItem]).map (fun i => (i.num, i.gen)) ++ c.members.map fun m => (m.1, 0), ?_⟩, ?_, ?_⟩
  · obtain ⟨es, body, tl, e, hb, hm⟩ := body_text (decoded := decoded) (c := c) (file := writeHybrid c) (revs := [revOf (hybrid c) fileHeader.length none]) (c.body ++ [c.xrefItem]) fileHeader sep_header
      (fun i hi => ⟨(hdefs hi).1, content_item hc hi, by obtain ⟨d, h, _⟩ := (hdefs hi).2; exact ⟨d, h⟩⟩)
    refine ⟨es, body, tl ++ ((hybrid c).show fileHeader.length none).drop (showBody (c.body ++ [c.xrefItem])).length, ?_, hb, fun n g o h => ?_⟩
    · rw [List.drop_zero, hybrid_write, ← List.append_assoc, e]
      simp only [List.append_assoc]
    · rcases content_cases h with ⟨i, hi, rfl, rfl, rfl⟩ | ⟨rfl, hmem⟩
      · left
        obtain ⟨a, b, e⟩ := List.append_of_mem hi
        obtain ⟨rest, hr⟩ := hybrid_at c a i b e
        obtain ⟨hw, defs, hd, _⟩ := hdefs hi
        exact ⟨_, showItem i, rest, _, defs, ⟨[], revOf (hybrid c) fileHeader.length none, [], rfl, (fun q hq => by simp at hq), inUse_at_shape (hybrid_shape hc hg hx) e _ _⟩,
          hr, Or.inl (item_text i hw), rfl, hd⟩
      · right
        refine ⟨?_, ?_⟩
        · intro r hr off
          simp at hr
          subst hr
          exact hybrid_member hc (List.mem_map.mpr ⟨_, hmem, rfl⟩) _ _
        · have hp : c.packItem ∈ c.body ++ [c.xrefItem] := by simp [Compressed.body]
          obtain ⟨defs, h1, h2⟩ := hm _ hp
          obtain ⟨_, defs', h3, _, h4⟩ := hdefs hp
          rw [defines_unique hfun h2 h3] at h1
          exact ⟨_, h1, h4 rfl _ hmem⟩
  · intro n g h
    cases hcnt : c.content n g with
    | none => exact absurd hcnt h
    | some o =>
      rcases content_cases hcnt with ⟨i, hi, rfl, rfl, rfl⟩ | ⟨rfl, hmem⟩
      · exact List.mem_append_left _ (List.mem_map.mpr ⟨i, hi, rfl⟩)
      · exact List.mem_append_right _ (List.mem_map.mpr ⟨_, hmem, rfl⟩)
  · intro n g o defs h hd d hm
    rcases content_cases h with ⟨i, hi, rfl, rfl, rfl⟩ | ⟨rfl, hmem⟩
    · obtain ⟨_, defs', h1, h2, _⟩ := hdefs hi
      rw [defines_unique hfun hd h1] at hm
      exact h2 d hm
    · have hn : NoPack o := by
        rintro e data v rfl
        exact absurd (hc.mems _ hmem).1 (by simp [Writable])
      cases hd with
      | plain =>
        simp at hm
        subst hm
        exact h
      | pack first e raw dir rest ms os htype => exact absurd (hn e raw _ rfl htype) (by simp)
  · intro r hr n g v o ho hcnt
    simp at hr
    subst hr
    cases ho

theorem sections_hybrid (hc : c.Ok) (hg : ∀ i ∈ c.items, i.gen < 10 ^ 5) (hx : b!"XRefStm" ∉ c.trailer.map (·.1)) (hs : (writeHybrid c).length < 10 ^ 10) :
    SectionsFrom decoded (writeHybrid c) (fileHeader.length + (showBody (c.body ++ [c.xrefItem])).length) [revOf (hybrid c) fileHeader.length none] :=
  Or.inl (.oldest _ _ (table_at_shape (hybrid_shape hc hg hx) (P := fileHeader) (Q := []) (by unfold writeHybrid writeFile showDrafts showDrafts; simp) rfl hs)
    (dict_noPrev_shape (hybrid_shape hc hg hx)))

theorem starts_hybrid (c : Compressed) : StartsAt (writeHybrid c) (fileHeader.length + (showBody (c.body ++ [c.xrefItem])).length) := by
  obtain ⟨body, hb, e⟩ := drafts_end [hybrid c] fileHeader.length none (by simp)
  refine starts_of (body := fileHeader ++ body) ?_ (by simp [fileHeader])
  unfold writeHybrid writeFile
  rw [e, List.append_assoc]
  rfl

theorem hybrid_get {k : Bytes} {v : Obj} (h : dictGet c.trailer k = some v) : dictGet (revOf (hybrid c) fileHeader.length none).dict k = some v := by
  show dictGet (c.trailer ++ _) k = _
  rw [dictGet_append, h]

/-- C144, objects: a hybrid-reference file of one revision is opened, whatever was asked before every object has its value, those in the object
stream too. -/
theorem C144_read_back_partial (clamps : Bool) (c : Compressed) (hc : c.Ok) (hg : ∀ i ∈ c.items, i.gen < 10 ^ 5) (hx : b!"XRefStm" ∉ c.trailer.map (·.1))
    (hs : (writeHybrid c).length < 10 ^ 10) (hundo : Undoes filtered c.how c.encode) (hb : clamps = true ∨ 1024 ≤ (writeHybrid c).length) :
    ∃ F, ∀ fuel, F ≤ fuel → ∃ o, openDoc filtered clamps fuel (writeHybrid c) = .ok o ∧ o.version = b!"1.7" ∧
      (∀ key ∈ [b!"Root", b!"Encrypt", b!"Info", b!"ID"], ∀ v, dictGet c.trailer key = some v → dictGet o.trailer key = some v) ∧
      ∀ history : List (Nat × Nat), (∀ k ∈ history, c.content k.1 k.2 ≠ none) → ∀ n g x, c.content n g = some x →
        (locate o.env fuel n g (asked o.env fuel history o.st)).1 = .ok x := by
  have hsec := sections_hybrid (decoded := fun d raw data => filtered d raw = .ok data) hc hg hx hs
  have hh := holds_hybrid (decoded := fun d raw data => filtered d raw = .ok data) hc hg hx hundo (fun d raw a b h1 h2 => by rw [h1] at h2; cases h2; rfl)
  have hhead : HeaderAt (writeHybrid c) b!"1.7" 0 := header_at [hybrid c] (by simp)
  obtain ⟨F, hF⟩ := C90_delivered clamps _ _ 0 _ _ [] _ hhead (starts_hybrid c) hb hsec hh
  refine ⟨F + 1, fun fuel hf => ?_⟩
  obtain ⟨o, h1, h2, h3, _⟩ := C89_opens (filtered := filtered) clamps _ _ 0 _ _ [] hhead (starts_hybrid c) hb hsec fuel (by simp; omega)
  obtain ⟨o', h1', h4⟩ := hF fuel (by omega)
  rw [h1] at h1'
  cases h1'
  refine ⟨o, h1, h2, fun key hkey v hv => ?_, h4⟩
  refine (h3 key ?_).1 v (hybrid_get hv)
  simp only [List.mem_cons, List.not_mem_nil, or_false] at hkey ⊢
  rcases hkey with h | h | h | h <;> simp [h]

/-- What such a file serves. -/
theorem hybrid_serves (secure : Opened → Obj → Res Opened) (clamps : Bool) (c : Compressed) (hc : c.Ok) (hg : ∀ i ∈ c.items, i.gen < 10 ^ 5)
    (hx : b!"XRefStm" ∉ c.trailer.map (·.1)) (hs : (writeHybrid c).length < 10 ^ 10) (hundo : Undoes filtered c.how c.encode)
    (hb : clamps = true ∨ 1024 ≤ (writeHybrid c).length) (henc : b!"Encrypt" ∉ c.trailer.map (·.1)) (a b : Nat) (catalog : List (Bytes × Obj)) (k : Option Bytes)
    (hroot : dictGet c.trailer b!"Root" = some (.ref a b)) (hcat : c.content a b = some (.dict catalog)) (hcls : DictKind catalog k) :
    Serves filtered (fun _ => secure) clamps (writeHybrid c) b!"1.7" (revOf (hybrid c) fileHeader.length none).dict k catalog c.content := by
  have hsec := sections_hybrid (decoded := fun d raw data => filtered d raw = .ok data) hc hg hx hs
  have hh := holds_hybrid (decoded := fun d raw data => filtered d raw = .ok data) hc hg hx hundo (fun d raw a b h1 h2 => by rw [h1] at h2; cases h2; rfl)
  refine openDocument_opens secure clamps _ _ 0 _ _ [] _ (header_at [hybrid c] (by simp)) (starts_hybrid c) hb hsec hh ?_ a b catalog k (hybrid_get hroot) hcat hcls
  left
  show dictGet (c.trailer ++ _) _ = none
  rw [dictGet_append, dictGet_notKey _ _ henc]
  rfl

/-- C144, pages. -/
theorem C144_pages_partial (secure : Opened → Obj → Res Opened) (clamps : Bool) (c : Compressed) (hc : c.Ok) (hg : ∀ i ∈ c.items, i.gen < 10 ^ 5)
    (hx : b!"XRefStm" ∉ c.trailer.map (·.1)) (hs : (writeHybrid c).length < 10 ^ 10) (hundo : Undoes filtered c.how c.encode)
    (hb : clamps = true ∨ 1024 ≤ (writeHybrid c).length) (henc : b!"Encrypt" ∉ c.trailer.map (·.1)) (a b : Nat) (catalog : List (Bytes × Obj)) (k : Option Bytes)
    (hroot : dictGet c.trailer b!"Root" = some (.ref a b)) (hcat : c.content a b = some (.dict catalog)) (hcls : DictKind catalog k)
    (n g : Nat) (node : List (Bytes × Obj)) (ps : List (List (Bytes × Obj))) (hpages : dictGet catalog b!"Pages" = some (.ref n g))
    (hnode : c.content n g = some (.dict node)) (htype : dictGet node b!"Type" = some (.name b!"Pages")) (htree : PageTree c.content n g ps) :
    ∃ F, ∀ fuel, F ≤ fuel → ∃ doc, openDocument filtered secure clamps fuel (writeHybrid c) = .ok (doc, .dict k catalog) ∧
      ∃ F', ∀ fuel', F' ≤ fuel' → ∃ s', docPages (locate doc.env fuel) fuel' (.dict k catalog) doc.st = (ps.map asPage, none, s') :=
  serves_pages (hybrid_serves secure clamps c hc hg hx hs hundo hb henc a b catalog k hroot hcat hcls) n g node ps hpages hnode htype htree

/-- C144, viewers: nobody who only uses the viewer can tell a hybrid-reference file from the same document with a cross-reference stream alone. -/
theorem C144_viewers_partial (builtin : Builtin) (predefined : Bytes → Option CMap) (secure secure' : Opened → Obj → Res Opened) (clamps : Bool) (c : Compressed) (hc : c.Ok)
    (hg : ∀ i ∈ c.items, i.gen < 10 ^ 5) (hx : b!"XRefStm" ∉ c.trailer.map (·.1)) (hs : (writeHybrid c).length < 10 ^ 10) (hundo : Undoes filtered c.how c.encode)
    (hb : clamps = true ∨ 1024 ≤ (writeHybrid c).length) (hb' : clamps = true ∨ 1024 ≤ c.write.length) (henc : b!"Encrypt" ∉ c.trailer.map (·.1)) (a b : Nat)
    (catalog : List (Bytes × Obj)) (k : Option Bytes) (hroot : dictGet c.trailer b!"Root" = some (.ref a b)) (hcat : c.content a b = some (.dict catalog))
    (hcls : DictKind catalog k) (hn : NoDangling c.content) :
    ∃ F, ∀ fuel, F ≤ fuel → ∀ fuel', F ≤ fuel' → ∀ depth, ∃ doc doc', viewFile filtered builtin predefined secure clamps fuel depth (writeHybrid c) = .ok doc ∧
      viewFile filtered builtin predefined secure' clamps fuel' depth c.write = .ok doc' ∧
      ∀ cs : List Call, ((openViewer doc).map fun v => observe doc v cs) = (openViewer doc').map fun v => observe doc' v cs :=
  C131_viewers builtin predefined (hybrid_serves secure clamps c hc hg hx hs hundo hb henc a b catalog k hroot hcat hcls)
    (compressed_serves secure' clamps c hc hundo hb' henc a b catalog k hroot hcat hcls) (store := c.content) (fun _ _ _ e => ⟨e, e⟩) hn (refsIn_dict (hn a b _ hcat))
end

/-! ### Examples -/

/-- The hypotheses of C144 are met: the catalog, the page tree and a page are in the object stream. -/
example (x : Ext) (secure : Opened → Obj → Res Opened) :
    ∃ F, ∀ fuel, F ≤ fuel → ∃ doc, openDocument (streamData x) secure true fuel (writeHybrid packed) =
        .ok (doc, .dict (some b!"Catalog") [(b!"Type", .name b!"Catalog"), (b!"Pages", .ref 2 0)]) ∧
      ∃ F', ∀ fuel', F' ≤ fuel' → ∃ s', docPages (locate doc.env fuel) fuel' (.dict (some b!"Catalog") [(b!"Type", .name b!"Catalog"), (b!"Pages", .ref 2 0)]) doc.st =
        ([asPage [(b!"Type", .name b!"Page"), (b!"Parent", .ref 2 0), (b!"Contents", .ref 5 0)],
          asPage [(b!"Type", .name b!"Page"), (b!"Parent", .ref 2 0)]], none, s') :=
  C144_pages_partial secure true packed packed_ok (by decide) (by decide) (by decide +kernel) (undoes_hex x) (Or.inl rfl) (by decide) 1 0 _ _ rfl rfl
    (.typed _ rfl (by decide)) 2 0 _ [_, _] rfl rfl rfl
    (.node 2 0 _ [(3, 0), (4, 0)] _ rfl rfl (.direct _ _ rfl) (.cons 3 0 _ [_] _ (.page 3 0 _ rfl rfl) (.cons 4 0 _ [_] _ (.page 4 0 _ rfl rfl) .nil)))




/-- A hybrid update: object 5 is in an object stream, number 8, which the table and the cross-reference stream, number 9, list. -/
def hidingFive (xrefStm : Nat) : Draft :=
  { items := [⟨8, 0, .stream [(b!"Type", .name b!"ObjStm"), (b!"N", .int 1), (b!"First", .int 4), (b!"Length", .int 9)] b!"5 0 (new)"⟩,
      ⟨9, 0, .stream [(b!"Type", .name b!"XRef"), (b!"W", .arr [.int 1, .int 2, .int 1]), (b!"Index", .arr [.int 5, .int 1]), (b!"Size", .int 10), (b!"Length", .int 4)] [2, 0, 8, 0]⟩],
    trailer := [(b!"Root", .ref 1 0), (b!"Size", .int 10), (b!"XRefStm", .int xrefStm)] }

/-- A page tree with a table, and the hybrid update. -/
def hybridUpdated : Bytes :=
  plainBase ++ (hidingFive (plainBase.length + (showBody ((hidingFive 0).items.take 1)).length)).show plainBase.length (some (fileHeader.length + (showBody firstDraft.items).length))

/-- C144 is false of updates: the hidden object is not found, although the object stream with its value is delivered. -/
theorem C144_counterexample : readAfter hybridUpdated [] 5 0 = .ok .null ∧
    readAfter hybridUpdated [] 8 0 = .ok (.stream [(b!"Type", .name b!"ObjStm"), (b!"N", .int 1), (b!"First", .int 4), (b!"Length", .int 9)] b!"5 0 (new)") := by
  decide +kernel

/-- The file of the example: its end, and what the object stream and the table say of each other. -/
example : hybridUpdated.drop 541 = b!"xref\n8 1\n0000000366 00000 n \n9 1\n0000000447 00000 n \ntrailer\n<</Root 1 0 R/Size 10/XRefStm 447/Prev 214>>\nstartxref\n541\n%%EOF\n" := by
  decide +kernel

/-- A hybrid-reference file of one revision. -/
example : (writeHybrid oldPack).drop 286 = b!"xref\n3 1\n0000000009 00000 n \n4 1\n0000000032 00000 n \n7 1\n0000000126 00000 n \ntrailer\n<</Root 1 0 R/Size 8/XRefStm 126>>\nstartxref\n286\n%%EOF\n" := by
  decide +kernel

end PdfReader
