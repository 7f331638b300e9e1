/-
  C141: cross-reference tables and cross-reference streams in the same file.
-/
import Verif.Props.Amend

namespace PdfReader

open Spec

variable {filtered : List (Bytes × Obj) → Bytes → Res Bytes}

/-- At offset `off` there is a cross-reference section of either kind. -/
def Spec.SectionAt (decoded : List (Bytes × Obj) → Bytes → Bytes → Prop) (file : Bytes) (off : Nat) (r : Revision) : Prop :=
  TableAt file off r ∨ XRefStreamAt decoded file off r

/-- A stream where a table is expected. -/
theorem table_refuses {decoded : List (Bytes × Obj) → Bytes → Bytes → Prop} {file : Bytes} {off : Nat} {r : Revision} (cfg : Cfg)
    (h : XRefStreamAt decoded file off r) : tableSection cfg file off = .error .parser := by
  obtain ⟨num, gen, raw, t, rest, _, _, _, _, _, _, htext, hfile, _⟩ := h
  obtain ⟨c, t', e, hc⟩ := ind_head htext
  have hlen : 4 ≤ t.length := by
    cases htext with
    | mk ns gs s₁ s₂ s₃ s₄ _ t hn => simp only [List.length_append, List.length_cons, List.length_nil]; omega
  unfold tableSection directXref readN
  rw [hfile, if_neg (by rw [List.length_append]; omega), e]
  dsimp only
  rw [if_neg]
  intro h
  simp only [List.cons_append, List.take_succ_cons] at h
  have := (List.cons.inj h).1
  subst this
  cases hc

/-- A table where a stream is expected. -/
theorem stream_refuses {file : Bytes} {off : Nat} {r : Revision} (h : TableAt file off r) : streamSection filtered file off = .error .parser := by
  obtain ⟨s, subs, u, s₁, s₂, raw, t, rest, hfile, _⟩ := h
  have : ∀ x : Bytes, nonNegInt (b!"xref" ++ x) = .error .parser := fun _ => rfl
  unfold streamSection indirectObject objHeader
  rw [hfile, this]

/-- A chain of sections of which one is not of the kind expected is not read. -/
theorem chain_refuses {sec good : Nat → Revision → Prop} {sect : Nat → Res Section} (hbad : ∀ off r, sec off r → ¬ good off r → sect off = .error .parser)
    (hlast : ∀ off r, good off r → dictGet r.dict b!"Prev" = none → ∃ x, sect off = .ok (x, r.dict, none))
    (hnext : ∀ off r p, good off r → dictGet r.dict b!"Prev" = some (.int (p : Nat)) → 0 < p → ∃ x, sect off = .ok (x, r.dict, some p)) :
    ∀ {off : Nat} {revs : List Revision}, Updates sec off revs → ¬ Updates good off revs → ∀ fuel, revs.length ≤ fuel →
      chain sect fuel off = .error .parser := by
  intro off revs h
  induction h with
  | oldest off r h1 h2 =>
    intro hn fuel hf
    cases fuel with
    | zero => simp at hf
    | succ fuel =>
      unfold chain
      rw [hbad off r h1 (fun hg => hn (.oldest off r hg h2))]
  | newer off p r rs h1 h2 h3 h4 ih =>
    intro hn fuel hf
    cases fuel with
    | zero => simp at hf
    | succ fuel =>
      unfold chain
      by_cases hg : good off r
      · obtain ⟨x, e⟩ := hnext off r p hg h2 h3
        rw [e]
        dsimp only
        rw [ih (fun h => hn (.newer off p r rs hg h2 h3 h)) fuel (by simp at hf; omega)]
      · rw [hbad off r h1 hg]

/-- C141: a file whose cross-reference sections are not all tables and not all streams is refused, with the exception for files which cannot be parsed:
the kind of the newest section decides how all the others are read. -/
theorem C141_mixed_refused (clamps : Bool) (file v : Bytes) (k off : Nat) (revs : List Revision) (hh : HeaderAt file v k)
    (hs : StartsAt file off) (hb : clamps = true ∨ 1024 ≤ file.length)
    (hsec : Updates (SectionAt (fun d raw data => filtered d raw = .ok data) file) off revs)
    (hmix : ¬ SectionsFrom (fun d raw data => filtered d raw = .ok data) file off revs) (fuel : Nat) (hf : revs.length ≤ fuel) :
    openDoc filtered clamps fuel file = .error .parser := by
  unfold openDoc
  rw [header_of hh]
  dsimp only
  rw [start_of hs hb]
  dsimp only
  have h0 : ∃ r, SectionAt (fun d raw data => filtered d raw = .ok data) file off r := by
    cases hsec with
    | oldest _ _ h => exact ⟨_, h⟩
    | newer _ _ _ _ h => exact ⟨_, h⟩
  obtain ⟨r, hr | hr⟩ := h0
  · have hx := (table_reads hr).1
    have hsect : sections filtered file off = tableSection openCfg file := by
      unfold sections
      rw [hx, if_pos rfl]
    rw [hsect, chain_refuses (good := TableAt file) (sec := SectionAt (fun d raw data => filtered d raw = .ok data) file)
      (fun off r h1 h2 => h1.elim (fun h => absurd h h2) (fun h => table_refuses openCfg h))
      (fun off r h1 h2 => by
        obtain ⟨_, x, hx, h⟩ := table_reads h1
        exact ⟨x, h none (prev_none h2).1⟩)
      (fun off r p h1 h2 h3 => by
        obtain ⟨_, x, hx, h⟩ := table_reads h1
        exact ⟨x, h (some p) (prev_some h2 h3).1⟩) hsec (fun h => hmix (.inl h)) fuel hf]
  · have hx := (stream_reads hr).1
    have hsect : sections filtered file off = streamSection filtered file := by
      unfold sections
      rw [if_neg hx]
    rw [hsect, chain_refuses (good := XRefStreamAt (fun d raw data => filtered d raw = .ok data) file) (sec := SectionAt (fun d raw data => filtered d raw = .ok data) file)
      (fun off r h1 h2 => h1.elim (fun h => stream_refuses h) (fun h => absurd h h2))
      (fun off r h1 h2 => by
        obtain ⟨_, x, _, _, _, _, _, hx, _, _, h⟩ := stream_reads h1
        exact ⟨x, h none (prev_none h2).2⟩)
      (fun off r p h1 h2 h3 => by
        obtain ⟨_, x, _, _, _, _, _, hx, _, _, h⟩ := stream_reads h1
        exact ⟨x, h (some p) (prev_some h2 h3).2⟩) hsec (fun h => hmix (.inr h)) fuel hf]

/-- C141, what holds: of the files with a chain of cross-reference sections of either kind exactly those are opened whose sections are of one kind. (The property asks
that all of them are.) -/
theorem C141_one_kind_partial (clamps : Bool) (file v : Bytes) (k off : Nat) (revs : List Revision) (hh : HeaderAt file v k)
    (hs : StartsAt file off) (hb : clamps = true ∨ 1024 ≤ file.length)
    (hsec : Updates (SectionAt (fun d raw data => filtered d raw = .ok data) file) off revs) (fuel : Nat) (hf : revs.length ≤ fuel) :
    (∃ o, openDoc filtered clamps fuel file = .ok o) ↔ SectionsFrom (fun d raw data => filtered d raw = .ok data) file off revs := by
  constructor
  · intro ⟨o, e⟩
    by_cases h : SectionsFrom (fun d raw data => filtered d raw = .ok data) file off revs
    · exact h
    · rw [C141_mixed_refused clamps file v k off revs hh hs hb hsec h fuel hf] at e
      cases e
  · intro h
    cases revs with
    | nil => cases hsec
    | cons r rs =>
      obtain ⟨o, e, _⟩ := C89_opens clamps file v k off r rs hh hs hb h fuel hf
      exact ⟨o, e⟩

/-! ### Other objects where a section is expected -/

/-- C89, the other way round: if `startxref` names an indirect object which is no cross-reference stream, the document is not opened. -/
theorem C89_other_object (clamps : Bool) (file v : Bytes) (k off n g : Nat) (o : Obj) (t rest : Bytes) (hh : HeaderAt file v k) (hs : StartsAt file off)
    (hb : clamps = true ∨ 1024 ≤ file.length) (hfile : file.drop off = t ++ rest) (ht : IndText n g o t)
    (ho : ∀ d raw x, o = .stream d raw → dictGet d b!"Type" = some x → x ∉ [.name b!"XRef", .hex b!"XRef", .token b!"XRef"]) (fuel : Nat) (hf : 1 ≤ fuel) :
    ((∃ d raw, o = .stream d raw ∧ dictGet d b!"Type" = none) → openDoc filtered clamps fuel file = .error .keyError) ∧
    ((¬ ∃ d raw, o = .stream d raw ∧ dictGet d b!"Type" = none) → openDoc filtered clamps fuel file = .error .parser) := by
  unfold openDoc
  rw [header_of hh]
  dsimp only
  rw [start_of hs hb]
  dsimp only
  have hx : (file.drop off).head? ≠ some 120 := by
    obtain ⟨c, t', e, hc⟩ := ind_head ht
    rw [hfile, e]
    intro h
    cases h
    cases hc
  have hsect : sections filtered file off = streamSection filtered file := by
    unfold sections
    rw [if_neg hx]
  obtain ⟨f, rfl⟩ : ∃ f, fuel = f + 1 := ⟨fuel - 1, by omega⟩
  unfold chain
  rw [hsect]
  unfold streamSection
  rw [hfile, indirect_text openCfg openCfg_noDiv rfl ht]
  constructor
  · rintro ⟨d, raw, rfl, hd⟩
    dsimp only
    rw [hd]
  · intro hno
    cases o with
    | stream d raw =>
      dsimp only
      cases hd : dictGet d b!"Type" with
      | none => exact absurd ⟨d, raw, rfl, hd⟩ hno
      | some x =>
        dsimp only
        have h1 : isText x b!"XRef" = false := by
          have := ho d raw x rfl hd
          cases hx : isText x b!"XRef" with
          | false => rfl
          | true =>
            exfalso
            apply this
            unfold isText at hx
            split at hx <;> simp_all
        rw [if_neg (by rw [h1]; decide)]
    | _ => rfl

/-- The premises can be met: `startxref` names the catalog. -/
def startsAtCatalog : Bytes := fileHeader ++ (showItem ⟨1, 0, .dict [(b!"Type", .name b!"Catalog")]⟩ ++ (10 :: (b!"startxref" ++ ([10] ++ (showNat 9 ++ ([10] ++ (b!"%%EOF" ++ [10])))))))

example : ∃ t rest, startsAtCatalog.drop 9 = t ++ rest ∧ IndText 1 0 (.dict [(b!"Type", .name b!"Catalog")]) t ∧ StartsAt startsAtCatalog 9 ∧
    openDoc filtered true 1 startsAtCatalog = .error .parser :=
  ⟨showItem ⟨1, 0, .dict [(b!"Type", .name b!"Catalog")]⟩, _, rfl, item_text ⟨1, 0, .dict [(b!"Type", .name b!"Catalog")]⟩ (by simp [WritableValue, Writable, WritableEnts]),
    starts_from 9 (body := fileHeader ++ (showItem ⟨1, 0, .dict [(b!"Type", .name b!"Catalog")]⟩ ++ [10])) (by decide) rfl, rfl⟩

/-! ### A table, then an update with a stream -/

theorem prev_is {a p : Nat} (h : some (Obj.int (a : Int)) = some (Obj.int (p : Int))) : p = a := by
  injection h with h
  injection h with h
  omega

theorem revU_prev (c : Compressed) (u : Amend) (start prev : Nat) : dictGet (revU c u start prev).dict b!"Prev" = some (.int (prev : Nat)) := rfl

theorem second_of {sec : Nat → Revision → Prop} {off p : Nat} {r q : Revision} (h : Updates sec off [r, q]) (hp : dictGet r.dict b!"Prev" = some (.int (p : Nat))) : sec p q := by
  cases h with
  | newer _ p' _ _ _ h2 _ h =>
    rw [hp] at h2
    cases prev_is h2
    cases h with
    | oldest _ _ h => exact h
    | newer _ _ _ _ _ _ _ h => cases h

def plainBase : Bytes := writeFile [firstDraft]

/-- A page tree with a table, and an update of object 5 with a cross-reference stream which names the table as its `Prev`. -/
def streamOnTable : Bytes := plainBase ++ newFive.text oldPack.how oldPack.encode plainBase.length (fileHeader.length + (showBody firstDraft.items).length)

theorem streamOnTable_sections : Updates (SectionAt (fun d raw data => (fun _ b => Except.ok b : List (Bytes × Obj) → Bytes → Res Bytes) d raw = .ok data) streamOnTable)
    (newFive.offset plainBase.length) [revU oldPack newFive plainBase.length (fileHeader.length + (showBody firstDraft.items).length), revOf firstDraft fileHeader.length none] := by
  refine .newer _ (fileHeader.length + (showBody firstDraft.items).length) _ _ (.inr ?_) rfl (Nat.lt_of_lt_of_le (by decide : 0 < fileHeader.length) (Nat.le_add_right _ _)) (.oldest _ _ (.inl ?_) (dict_noPrev (drafts_ok _ (by simp))))
  · exact amend_at (decoded := fun d raw data => (fun _ b => Except.ok b : List (Bytes × Obj) → Bytes → Res Bytes) d raw = .ok data) (u := newFive) oldPack_ok (newFive_ok.each newFive (by simp)) (fun _ _ _ _ => rfl) plainBase (fileHeader.length + (showBody firstDraft.items).length) (by decide +kernel)
  · refine table_at (P := fileHeader) (drafts_ok _ (by simp)) (Q := newFive.text oldPack.how oldPack.encode plainBase.length (fileHeader.length + (showBody firstDraft.items).length)) ?_ rfl (by decide +kernel)
    unfold streamOnTable plainBase writeFile showDrafts showDrafts
    simp only [List.append_assoc, List.append_nil]

theorem streamOnTable_starts : StartsAt streamOnTable (newFive.offset plainBase.length) :=
  starts_from _ (body := plainBase ++ showBody (newFive.items ++ [newFive.xrefItem oldPack.how oldPack.encode plainBase.length (fileHeader.length + (showBody firstDraft.items).length)]))
    (by decide +kernel)
    (by
      unfold streamOnTable
      rw [List.append_assoc]
      rfl)

theorem streamOnTable_header : HeaderAt streamOnTable b!"1.7" 0 :=
  ⟨[], b!"%PDF-1.7", streamOnTable.drop 8, by decide +kernel, rfl, .pdf b!"1.7" ⟨49, 55, by simp [Digit], by simp [Digit], rfl⟩, Or.inl rfl, fun _ _ _ _ _ _ => Nat.zero_le _,
    by decide, by decide +kernel⟩

/-- The property is false of the code: a conforming file with a table and an update with a stream is refused. (The same file without the update is opened.) -/
theorem C141_counterexample : (∃ revs, Updates (SectionAt (fun _ raw data => raw = data) streamOnTable) (newFive.offset plainBase.length) revs) ∧
    HeaderAt streamOnTable b!"1.7" 0 ∧ StartsAt streamOnTable (newFive.offset plainBase.length) ∧
    (∀ fuel, 2 ≤ fuel → openDoc (fun _ b => .ok b) true fuel streamOnTable = .error .parser) ∧
    (∀ fuel, 1 ≤ fuel → ∃ o, openDoc (fun _ b => .ok b) true fuel plainBase = .ok o) := by
  have hsec := streamOnTable_sections
  refine ⟨⟨[revU oldPack newFive plainBase.length (fileHeader.length + (showBody firstDraft.items).length), revOf firstDraft fileHeader.length none], ?_⟩, streamOnTable_header, streamOnTable_starts, fun fuel hf => ?_, fun fuel hf => ?_⟩
  · have : (fun (d : List (Bytes × Obj)) (raw data : Bytes) => (fun _ b => Except.ok b : List (Bytes × Obj) → Bytes → Res Bytes) d raw = .ok data) = fun _ raw data => raw = data := by
      funext d raw data
      exact propext ⟨fun h => Except.ok.inj h, fun h => congrArg _ h⟩
    rw [this] at hsec
    exact hsec
  · refine C141_mixed_refused true _ _ _ _ _ streamOnTable_header streamOnTable_starts (.inl rfl) hsec ?_ fuel (by simpa using hf)
    rintro (h | h)
    · cases h with
      | newer _ _ _ _ h =>
        obtain ⟨_, _, _, _, _, _, _, _, hfile, _⟩ := h
        have : (streamOnTable.drop (newFive.offset plainBase.length)).head? = some 120 := by rw [hfile]; rfl
        revert this
        decide +kernel
    · have h0 := second_of h (revU_prev _ _ _ _)
      exact absurd (by decide +kernel) (stream_reads h0).1
  · obtain ⟨o, e, _⟩ := C89_opens (filtered := fun _ b => .ok b) true plainBase b!"1.7" 0 _ _ _ (header_at [firstDraft] (by simp)) (starts_at [firstDraft] (by simp)) (.inl rfl)
      (.inl (.oldest _ (revOf firstDraft fileHeader.length none) (table_at (P := fileHeader) (prev := none) (Q := []) (drafts_ok firstDraft (by simp)) (by
        unfold plainBase writeFile showDrafts showDrafts
        simp only [List.append_nil]) rfl (by decide +kernel)) (dict_noPrev (drafts_ok firstDraft (by simp))))) fuel (by simpa using hf)
    exact ⟨o, e⟩

end PdfReader
