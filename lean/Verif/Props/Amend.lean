/-
  C118: updates of a document with cross-reference streams.
-/
import Verif.Spec.Amend
import Verif.Props.Compressed
import Verif.Props.Locate
import Verif.Props.Walk

namespace PdfReader

open Spec

variable {filtered : List (Bytes × Obj) → Bytes → Res Bytes}

/-! ### Documents all of whose objects are listed -/

/-- Nothing has to be known about the body of a file as long as only objects are asked for which the sections list. -/
theorem holds_listed {decoded : List (Bytes × Obj) → Bytes → Bytes → Prop} {file : Bytes} {k : Nat} {revs : List Revision} {content : Spec.Content}
    (hl : ∀ n g x, content n g = some x → NoPack x ∧ ∃ off t rest, CurrentAt revs n g off ∧ file.drop off = t ++ rest ∧ ObjText file revs content n g x t)
    (hfin : ∃ all : List (Nat × Nat), ∀ n g, content n g ≠ none → (n, g) ∈ all)
    (hown : ∀ r ∈ revs, ∀ n g v o, r.own = some (n, g, v) → content n g = some o → v = o) : Spec.Holds decoded AsIs file k revs content := by
  refine ⟨⟨[], [], file.drop k, rfl, .nil, fun n g o ho => ?_⟩, hfin, ?_, hown⟩
  · obtain ⟨hn, off, t, rest, h1, h2, h3⟩ := hl n g o ho
    exact .inl ⟨off, t, rest, o, _, h1, h2, h3, rfl, .plain o hn⟩
  · intro n g o defs ho hd d hdm
    cases hd with
    | plain =>
      simp at hdm
      subst hdm
      exact ho
    | pack first dd raw dir rest ms os htype => exact absurd ((hl n g _ ho).1 dd raw _ rfl htype) (by simp)

/-- C118, the part which holds: in a file with sections of either kind, whatever else is in the file and however its objects were defined before, objects
which the sections list are delivered from the newest entry as long as no other objects were asked for. Missing: objects in object streams, and
objects asked for after one of those (`C118_packed_counterexample`, `C118_order_counterexample`). -/
theorem C118_listed_partial (clamps : Bool) (file v : Bytes) (k off : Nat) (r : Revision) (rs : List Revision) (content : Spec.Content) (hh : HeaderAt file v k)
    (hs : StartsAt file off) (hb : clamps = true ∨ 1024 ≤ file.length)
    (hsec : SectionsFrom (fun d raw data => filtered d raw = .ok data) file off (r :: rs))
    (hl : ∀ n g x, content n g = some x → NoPack x ∧ ∃ off t rest, CurrentAt (r :: rs) n g off ∧ file.drop off = t ++ rest ∧ ObjText file (r :: rs) content n g x t)
    (hfin : ∃ all : List (Nat × Nat), ∀ n g, content n g ≠ none → (n, g) ∈ all)
    (hown : ∀ q ∈ r :: rs, ∀ n g v o, q.own = some (n, g, v) → content n g = some o → v = o) :
    ∃ F, ∀ fuel, F ≤ fuel → ∃ o, openDoc filtered clamps fuel file = .ok o ∧
      ∀ history : List (Nat × Nat), (∀ k ∈ history, content k.1 k.2 ≠ none) → ∀ n g x, content n g = some x →
        (locate o.env fuel n g (asked o.env fuel history o.st)).1 = .ok x :=
  C90_delivered clamps file v k off r rs content hh hs hb hsec (holds_listed hl hfin hown)

/-! ### Written updates -/

theorem from_length : ∀ (n : Nat) (vs : List Obj), (Amend.from_ n vs).length = vs.length
  | _, [] => rfl
  | n, v :: vs => by rw [Amend.from_, List.length_cons, from_length (n + 1) vs, List.length_cons]

theorem from_get : ∀ (n : Nat) (vs : List Obj) (i : Nat) (h : i < vs.length), (Amend.from_ n vs)[i]? = some ⟨n + i, 0, vs[i]⟩
  | _, [], _, h => by cases h
  | n, v :: vs, 0, _ => rfl
  | n, v :: vs, i + 1, h => by
    rw [Amend.from_, List.getElem?_cons_succ, from_get (n + 1) vs i (by simpa using h)]
    simp
    omega

theorem amend_split (u : Amend) (i : Nat) (h : i < u.vals.length) : ∃ b, u.items = u.items.take i ++ ⟨u.first + i, 0, u.vals[i]⟩ :: b := by
  have hg := from_get u.first u.vals i h
  change u.items[i]? = _ at hg
  obtain ⟨hi, e⟩ := List.getElem?_eq_some_iff.mp hg
  refine ⟨u.items.drop (i + 1), ?_⟩
  rw [← e, ← List.drop_eq_getElem_cons hi, List.take_append_drop]

/-- What the cross-reference stream of an update says. -/
def revU (c : Compressed) (u : Amend) (start prev : Nat) : Revision :=
  { inUse := fun n => if u.first ≤ n ∧ n < u.first + u.vals.length then some (u.place start (n - u.first), 0) else none,
    dict := u.dict c.how c.encode start prev, own := some (u.xref, 0, (u.xrefItem c.how c.encode start prev).val) }

/-- The sections. -/
def amendedRevs (c : Compressed) : List Amend → List Revision
  | [] => [revC c]
  | u :: us => revU c u (amended c us).1.length (amended c us).2 :: amendedRevs c us

theorem place_lt (u : Amend) (start i : Nat) : u.place start i ≤ u.offset start := by
  unfold Amend.place Amend.offset
  have : (showBody (u.items.take i)).length ≤ (showBody u.items).length := by
    have key : ∀ (a b : List FileItem), (showBody a).length ≤ (showBody (a ++ b)).length := by
      intro a b
      induction a with
      | nil => simp [showBody]
      | cons x a ih =>
        rw [List.cons_append, showBody, showBody]
        simp only [List.length_append, List.length_cons]
        omega
    have := key (u.items.take i) (u.items.drop i)
    rwa [List.take_append_drop] at this
  omega

theorem text_length (c : Compressed) (u : Amend) (start prev : Nat) : u.offset start < start + (u.text c.how c.encode start prev).length := by
  unfold Amend.offset Amend.text
  obtain ⟨rest, e⟩ := body_at u.items (u.xrefItem c.how c.encode start prev) []
  rw [e]
  simp only [List.length_append]
  simp
  omega

theorem amended_offset (c : Compressed) : ∀ us : List Amend, 0 < (amended c us).2 ∧ (amended c us).2 < (amended c us).1.length
  | [] => ⟨by show 0 < c.offset; unfold Compressed.offset; simp [fileHeader]; omega, write_length c⟩
  | u :: us => by
    have h := amended_offset c us
    have h2 := text_length c u (amended c us).1.length (amended c us).2
    refine ⟨?_, ?_⟩
    · show 0 < u.offset (amended c us).1.length
      unfold Amend.offset
      omega
    · show u.offset _ < (_ ++ _ : Bytes).length
      rw [List.length_append]
      exact h2

section
variable {decoded : List (Bytes × Obj) → Bytes → Bytes → Prop} {c : Compressed} {u : Amend}

theorem amend_keys (hc : c.Ok) (hu : u.Ok) (start prev : Nat) : ((u.dict c.how c.encode start prev).map (·.1)).Nodup := by
  unfold Amend.dict
  rw [List.map_append, List.map_append, List.nodup_append, List.nodup_append]
  refine ⟨by simp, ⟨hc.howKeys, hu.keys, ?_⟩, ?_⟩
  · intro a ha b hb e
    subst e
    have := hc.howOnly a ha
    refine hu.reserved a ?_ hb
    simp at this ⊢
    rcases this with rfl | rfl <;> simp
  · intro a ha b hb e
    subst e
    rcases List.mem_append.mp hb with hb | hb
    · have := hc.howOnly a hb
      simp at this ha
      rcases this with rfl | rfl <;> simp at ha
    · refine hu.reserved a ?_ hb
      simp at ha ⊢
      rcases ha with rfl | rfl | rfl | rfl | rfl | rfl <;> simp

theorem amend_writable (hc : c.Ok) (hu : u.Ok) (start prev : Nat) : WritableValue (u.xrefItem c.how c.encode start prev).val := by
  refine ⟨amend_keys hc hu start prev, ?_, by simp [Amend.dict]⟩
  refine writableEnts_append _ _ ?_ (writableEnts_append _ _ hc.howEnts hu.ents)
  simp [WritableEnts, Writable, WritableItems]

theorem amend_get (hu : u.Ok) (start prev : Nat) :
    dictGet (u.dict c.how c.encode start prev) b!"Filter" = dictGet c.how b!"Filter" ∧
    dictGet (u.dict c.how c.encode start prev) b!"DecodeParms" = dictGet c.how b!"DecodeParms" := by
  have other : ∀ k, k ∉ [b!"Type", b!"W", b!"Length", b!"Size", b!"Index", b!"Prev"] → k ∉ u.trailer.map (·.1) →
      dictGet (u.dict c.how c.encode start prev) k = dictGet c.how k := by
    intro k hk hk'
    unfold Amend.dict
    rw [dictGet_append, dictGet_notKey _ k (by simpa using hk)]
    dsimp only
    rw [dictGet_append, dictGet_notKey _ k hk']
    cases dictGet c.how k <;> rfl
  exact ⟨other _ (by simp) (hu.reserved _ (by simp)), other _ (by simp) (hu.reserved _ (by simp))⟩

theorem amend_trailer (hc : c.Ok) (start prev : Nat) {k : Bytes} (hk : k ∉ [b!"Type", b!"W", b!"Length", b!"Size", b!"Index", b!"Prev", b!"Filter", b!"DecodeParms"]) :
    dictGet (u.dict c.how c.encode start prev) k = dictGet u.trailer k := by
  have h2 : k ∉ [b!"Type", b!"W", b!"Length", b!"Size", b!"Index", b!"Prev"] := fun h => hk (by
    simp only [List.mem_cons, List.not_mem_nil, or_false] at h ⊢
    rcases h with h | h | h | h | h | h <;> simp [h])
  unfold Amend.dict
  rw [dictGet_append, dictGet_notKey _ k (by simpa using h2)]
  dsimp only
  rw [dictGet_append, how_other hc (fun e => hk (by simp [e])) (fun e => hk (by simp [e]))]

/-- The cross-reference stream of an update is one. -/
theorem amend_at (hc : c.Ok) (hu : u.Ok) (hdec : Decodes decoded c.how c.encode) (f : Bytes) (prev : Nat)
    (hlen : (f ++ u.text c.how c.encode f.length prev).length < 256 ^ 4) :
    XRefStreamAt decoded (f ++ u.text c.how c.encode f.length prev) (u.offset f.length) (revU c u f.length prev) := by
  obtain ⟨g1, g2⟩ := amend_get (c := c) hu f.length prev
  obtain ⟨rest, hr⟩ := body_at u.items (u.xrefItem c.how c.encode f.length prev) []
  refine ⟨u.xref, 0, c.encode (u.data f.length), showItem (u.xrefItem c.how c.encode f.length prev),
    rest ++ (b!"startxref" ++ ([10] ++ (showNat (u.offset f.length) ++ ([10] ++ (b!"%%EOF" ++ [10]))))), u.first, 1, 4, 4, u.rows f.length, rfl,
    item_text (u.xrefItem c.how c.encode f.length prev) (amend_writable hc hu _ _), ?_, rfl, .inl ⟨_, rfl⟩, rfl, by omega, ?_, hdec _ _ g1 g2, ?_, ?_⟩
  · unfold Amend.offset
    rw [← List.drop_drop, List.drop_left]
    unfold Amend.text
    rw [hr, List.append_assoc, List.drop_left, List.append_assoc]
    rfl
  · intro row h
    unfold Amend.rows at h
    obtain ⟨i, _, rfl⟩ := List.mem_map.mp h
    have h1 := place_lt u f.length i
    have h2 := text_length c u f.length prev
    rw [List.length_append] at hlen
    exact ⟨by simp, by show u.place f.length i < _; omega, by simp⟩
  · intro i h
    have hi : i < u.vals.length := by simpa [Amend.rows] using h
    have hrow : (u.rows f.length)[i] = ⟨1, u.place f.length i, 0⟩ := by simp [Amend.rows]
    rw [hrow]
    show (if u.first ≤ u.first + i ∧ u.first + i < u.first + u.vals.length then some (u.place f.length (u.first + i - u.first), 0) else none) = _
    rw [if_pos (by omega), if_pos rfl, show u.first + i - u.first = i by omega]
  · intro n h
    show (if u.first ≤ n ∧ n < u.first + u.vals.length then _ else _) = _
    have hl : (u.rows f.length).length = u.vals.length := by simp [Amend.rows]
    rw [hl] at h
    rw [if_neg (by omega)]

/-- What is appended does not disturb the sections. -/
theorem section_append {f x : Bytes} {off : Nat} {r : Revision} (h : XRefStreamAt decoded f off r) : XRefStreamAt decoded (f ++ x) off r := by
  obtain ⟨num, gen, raw, t, rest, first, w0, w1, w2, rows, h1, h2, h3, h4⟩ := h
  refine ⟨num, gen, raw, t, rest ++ x, first, w0, w1, w2, rows, h1, h2, ?_, h4⟩
  have hoff : off ≤ f.length := by
    by_cases h : off ≤ f.length
    · exact h
    · rw [List.drop_eq_nil_of_le (by omega)] at h3
      exfalso
      cases h2
      simp at h3
  rw [List.drop_append_of_le_length hoff, h3, List.append_assoc]

theorem updates_append {f x : Bytes} {off : Nat} {rs : List Revision} (h : Updates (XRefStreamAt decoded f) off rs) : Updates (XRefStreamAt decoded (f ++ x)) off rs := by
  induction h with
  | oldest off r h1 h2 => exact .oldest off r (section_append h1) h2
  | newer off p r rs h1 h2 h3 _ ih => exact .newer off p r rs (section_append h1) h2 h3 ih

theorem amended_sections (hc : c.Ok) (hdec : Decodes decoded c.how c.encode) : ∀ us : List Amend, (∀ u ∈ us, u.Ok) → (amended c us).1.length < 256 ^ 4 →
    Updates (XRefStreamAt decoded (amended c us).1) (amended c us).2 (amendedRevs c us)
  | [], _, _ => .oldest _ _ (xref_at hc hdec) (xref_get hc).2.2.2.2.1
  | u :: us, hu, hl => by
    have hl' : (amended c us).1.length < 256 ^ 4 := by
      have : (amended c (u :: us)).1.length = (amended c us).1.length + _ := List.length_append
      omega
    exact .newer _ (amended c us).2 _ _ (amend_at hc (hu u (by simp)) hdec _ _ hl) rfl (amended_offset c us).1
      (updates_append (amended_sections hc hdec us (fun q hq => hu q (by simp [hq])) hl'))

theorem amended_starts (c : Compressed) : ∀ us : List Amend, StartsAt (amended c us).1 (amended c us).2
  | [] => starts_compressed c
  | u :: us => starts_from _ (body := (amended c us).1 ++ showBody (u.items ++ [u.xrefItem c.how c.encode (amended c us).1.length (amended c us).2]))
      (by
        intro e
        have h1 := (List.append_eq_nil_iff.mp e).1
        have h2 := (amended_offset c us).2
        rw [h1] at h2
        simp at h2)
      (by
        show (_ ++ _ : Bytes) = _
        rw [List.append_assoc]
        rfl)

theorem amended_begins (c : Compressed) : ∀ us : List Amend, ∃ x, (amended c us).1 = c.write ++ x
  | [] => ⟨[], (List.append_nil _).symm⟩
  | u :: us => by
    obtain ⟨x, e⟩ := amended_begins c us
    refine ⟨x ++ u.text c.how c.encode (amended c us).1.length (amended c us).2, ?_⟩
    show (amended c us).1 ++ _ = _
    rw [← List.append_assoc, ← e]

theorem amended_header (c : Compressed) (us : List Amend) : HeaderAt (amended c us).1 b!"1.7" 0 := by
  obtain ⟨x, e⟩ := amended_begins c us
  rw [e]
  refine ⟨[], b!"%PDF-1.7", [10] ++ (showBody (c.body ++ [c.xrefItem]) ++ (b!"startxref" ++ ([10] ++ (showNat c.offset ++ ([10] ++ (b!"%%EOF" ++ [10])))))) ++ x, ?_, rfl,
    .pdf b!"1.7" ⟨49, 55, by simp [Digit], by simp [Digit], rfl⟩, Or.inl rfl, fun a h' b v' _ _ => Nat.zero_le _, by simp, ?_⟩
  · unfold Compressed.write
    simp [fileHeader]
  · unfold Compressed.write
    simp [fileHeader]
    omega

theorem noPack_of {v : Obj} (h : ∀ e data, v = .stream e data → ∀ x, (b!"Type", x) ∈ e → x ∉ [.name b!"ObjStm", .hex b!"ObjStm", .token b!"ObjStm"]) : NoPack v := by
  intro d raw x e hx
  have hmem : ∀ es : List (Bytes × Obj), dictGet es b!"Type" = some x → (b!"Type", x) ∈ es := by
    intro es
    induction es with
    | nil => intro h; cases h
    | cons y es ih =>
      intro h
      obtain ⟨k, w⟩ := y
      rw [dictGet] at h
      split at h
      · rename_i hk
        cases h
        rw [hk]
        exact List.mem_cons_self ..
      · exact List.mem_cons_of_mem _ (ih h)
  exact h d raw e x (hmem d hx)

/-- Every object is where its newest entry says. -/
theorem amended_listed (hc : c.Ok) : ∀ us : List Amend, (∀ u ∈ us, u.Ok) → ∀ n g x, amendedContent c us n g = some x →
    NoPack x ∧ ∃ off t rest, CurrentAt (amendedRevs c us) n g off ∧ (amended c us).1.drop off = t ++ rest ∧ IndText n g x t
  | [], _, n, g, x, h => by
    unfold amendedContent at h
    cases hf : c.items.find? fun i => i.num == n && i.gen == g with
    | none => rw [hf] at h; cases h
    | some i =>
      rw [hf] at h
      cases h
      have hi := List.mem_of_find?_eq_some hf
      have hp := List.find?_some hf
      simp only [Bool.and_eq_true, beq_iff_eq] at hp
      obtain ⟨rfl, rfl⟩ := hp
      obtain ⟨a, b, e⟩ := List.append_of_mem hi
      have e' : c.body ++ [c.xrefItem] = a ++ i :: (b ++ [c.packItem, c.xrefItem]) := by
        unfold Compressed.body
        rw [e]
        simp
      obtain ⟨rest, hr⟩ := write_at c a i _ e'
      exact ⟨noPack_of (hc.plain i hi), _, _, rest, ⟨[], revC c, [], rfl, by simp, inUse_item hc e'⟩, hr, item_text i (hc.vals i hi)⟩
  | u :: us, hu, n, g, x, h => by
    unfold amendedContent at h
    by_cases hin : g = 0 ∧ u.first ≤ n ∧ n < u.first + u.vals.length
    · rw [if_pos hin] at h
      obtain ⟨rfl, h1, h2⟩ := hin
      obtain ⟨hi, rfl⟩ := List.getElem?_eq_some_iff.mp h
      have hm : u.vals[n - u.first] ∈ u.vals := List.getElem_mem hi
      obtain ⟨b, e⟩ := amend_split u (n - u.first) hi
      rw [show u.first + (n - u.first) = n by omega] at e
      obtain ⟨rest, hr⟩ := body_at (u.items.take (n - u.first)) ⟨n, 0, u.vals[n - u.first]⟩ (b ++ [u.xrefItem c.how c.encode (amended c us).1.length (amended c us).2])
      refine ⟨noPack_of ((hu u (by simp)).plain _ hm), u.place (amended c us).1.length (n - u.first), showItem ⟨n, 0, u.vals[n - u.first]⟩,
        rest ++ (b!"startxref" ++ ([10] ++ (showNat (u.offset (amended c us).1.length) ++ ([10] ++ (b!"%%EOF" ++ [10]))))),
        ⟨[], _, _, rfl, by simp, if_pos ⟨h1, h2⟩⟩, ?_, item_text ⟨n, 0, u.vals[n - u.first]⟩ ((hu u (by simp)).vals _ hm)⟩
      · show List.drop _ ((amended c us).1 ++ _) = _
        unfold Amend.place
        rw [← List.drop_drop, List.drop_left]
        unfold Amend.text
        have e2 : u.items ++ [u.xrefItem c.how c.encode (amended c us).1.length (amended c us).2] =
            u.items.take (n - u.first) ++ ⟨n, 0, u.vals[n - u.first]⟩ :: (b ++ [u.xrefItem c.how c.encode (amended c us).1.length (amended c us).2]) := by
          conv => lhs; rw [e]
          simp
        rw [e2, hr, List.append_assoc, List.drop_left, List.append_assoc]
    · rw [if_neg hin] at h
      obtain ⟨hn, off, t, rest, ⟨newer, q, older, e1, e2, e3⟩, h2, h3⟩ := amended_listed hc us (fun q hq => hu q (by simp [hq])) n g x h
      refine ⟨hn, off, t, rest ++ u.text c.how c.encode (amended c us).1.length (amended c us).2,
        ⟨revU c u (amended c us).1.length (amended c us).2 :: newer, q, older, ?_, ?_, e3⟩, ?_, h3⟩
      · show _ :: amendedRevs c us = _
        rw [e1]
        rfl
      · intro p hp off' hoff
        rcases List.mem_cons.mp hp with rfl | hp
        · change (if u.first ≤ n ∧ n < u.first + u.vals.length then some (u.place (amended c us).1.length (n - u.first), 0) else none) = _ at hoff
          split at hoff
          · rename_i hr
            injection hoff with hoff
            exact hin ⟨(Prod.mk.inj hoff).2.symm, hr⟩
          · cases hoff
        · exact e2 p hp off' hoff
      · have hoff : off ≤ (amended c us).1.length := by
          by_cases hh : off ≤ (amended c us).1.length
          · exact hh
          · rw [List.drop_eq_nil_of_le (by omega)] at h2
            exfalso
            cases h3
            simp at h2
        show List.drop off ((amended c us).1 ++ _) = _
        rw [List.drop_append_of_le_length hoff, h2, List.append_assoc]

theorem amended_own : ∀ (us : List Amend) (r : Revision), r ∈ amendedRevs c us → ∃ num v, r.own = some (num, 0, v) ∧ (num = c.xref ∨ ∃ u ∈ us, num = u.xref)
  | [], r, h => by
    rw [amendedRevs, List.mem_singleton] at h
    subst h
    exact ⟨_, _, rfl, .inl rfl⟩
  | u :: us, r, h => by
    rw [amendedRevs] at h
    rcases List.mem_cons.mp h with rfl | h
    · exact ⟨_, _, rfl, .inr ⟨u, by simp, rfl⟩⟩
    · obtain ⟨num, v, e, h'⟩ := amended_own us r h
      refine ⟨num, v, e, ?_⟩
      rcases h' with h' | ⟨q, hq, h'⟩
      · exact .inl h'
      · exact .inr ⟨q, by simp [hq], h'⟩

theorem amended_finite (c : Compressed) : ∀ us : List Amend, ∃ all : List (Nat × Nat), ∀ n g, amendedContent c us n g ≠ none → (n, g) ∈ all
  | [] => by
    refine ⟨c.items.map fun i => (i.num, i.gen), fun n g h => ?_⟩
    unfold amendedContent at h
    cases hf : c.items.find? fun i => i.num == n && i.gen == g with
    | none => rw [hf] at h; exact absurd rfl h
    | some i =>
      have hp := List.find?_some hf
      simp only [Bool.and_eq_true, beq_iff_eq] at hp
      exact List.mem_map.mpr ⟨i, List.mem_of_find?_eq_some hf, by rw [hp.1, hp.2]⟩
  | u :: us => by
    obtain ⟨all, h⟩ := amended_finite c us
    refine ⟨(List.range u.vals.length).map (fun i => (u.first + i, 0)) ++ all, fun n g hn => ?_⟩
    unfold amendedContent at hn
    rw [List.mem_append]
    by_cases hin : g = 0 ∧ u.first ≤ n ∧ n < u.first + u.vals.length
    · left
      exact List.mem_map.mpr ⟨n - u.first, List.mem_range.mpr (by omega), by rw [hin.1, show u.first + (n - u.first) = n by omega]⟩
    · rw [if_neg hin] at hn
      exact .inr (h n g hn)

/-- A written document with updates holds the newest values. -/
theorem amended_holds {us : List Amend} (h : AmendsOk c us) : Spec.Holds decoded AsIs (amended c us).1 0 (amendedRevs c us) (amendedContent c us) := by
  refine holds_listed (fun n g x hx => ?_) (amended_finite c us) ?_
  · obtain ⟨hn, off, t, rest, h1, h2, h3⟩ := amended_listed h.base us h.each n g x hx
    exact ⟨hn, off, t, rest, h1, h2, .inl h3⟩
  · intro r hr n g v o e ho
    obtain ⟨num, w, e', hnum⟩ := amended_own us r hr
    rw [e'] at e
    cases e
    rcases hnum with rfl | ⟨u, hu, rfl⟩
    · rw [h.own.1] at ho; cases ho
    · rw [h.own.2 u hu] at ho; cases ho

end

theorem amendedRevs_cons (c : Compressed) (us : List Amend) : ∃ r rs, amendedRevs c us = r :: rs := by
  cases us with
  | nil => exact ⟨_, _, rfl⟩
  | cons u us => exact ⟨_, _, rfl⟩

/-- C118, for written documents: a document with object stream and cross-reference stream, and any number of updates with cross-reference streams, opens, and each
object by itself has its newest value, also one which was in the object stream before; whichever of them were asked for before. -/
theorem C118_read_back_partial (clamps : Bool) (c : Compressed) (us : List Amend) (h : AmendsOk c us) (hundo : Undoes filtered c.how c.encode)
    (hb : clamps = true ∨ 1024 ≤ (amended c us).1.length) :
    ∃ F, ∀ fuel, F ≤ fuel → ∃ o, openDoc filtered clamps fuel (amended c us).1 = .ok o ∧
      ∀ history : List (Nat × Nat), (∀ k ∈ history, amendedContent c us k.1 k.2 ≠ none) → ∀ n g x, amendedContent c us n g = some x →
        (locate o.env fuel n g (asked o.env fuel history o.st)).1 = .ok x := by
  have hsec : SectionsFrom (fun d raw data => filtered d raw = .ok data) _ _ _ := Or.inr (amended_sections (decoded := fun d raw data => filtered d raw = .ok data) h.base hundo us h.each h.length)
  have hh := amended_holds (decoded := fun d raw data => filtered d raw = .ok data) h
  obtain ⟨r, rs, e⟩ := amendedRevs_cons c us
  rw [e] at hsec hh
  exact C90_delivered clamps _ _ 0 _ r rs _ (amended_header c us) (amended_starts c us) hb hsec hh

/-- C118, for the pages of a written document with at least one update: the trailer of the newest update names the catalog, which is among the objects by themselves. -/
theorem C118_pages_partial (secure : Opened → Obj → Res Opened) (clamps : Bool) (c : Compressed) (u : Amend) (us : List Amend) (h : AmendsOk c (u :: us))
    (hundo : Undoes filtered c.how c.encode) (hb : clamps = true ∨ 1024 ≤ (amended c (u :: us)).1.length) (henc : b!"Encrypt" ∉ u.trailer.map (·.1))
    (a b : Nat) (catalog : List (Bytes × Obj)) (k : Option Bytes) (hroot : dictGet u.trailer b!"Root" = some (.ref a b))
    (hcat : amendedContent c (u :: us) a b = some (.dict catalog)) (hcls : DictKind catalog k)
    (n g : Nat) (node : List (Bytes × Obj)) (ps : List (List (Bytes × Obj))) (hpages : dictGet catalog b!"Pages" = some (.ref n g))
    (hnode : amendedContent c (u :: us) n g = some (.dict node)) (htype : dictGet node b!"Type" = some (.name b!"Pages"))
    (htree : PageTree (amendedContent c (u :: us)) n g ps) :
    ∃ F, ∀ fuel, F ≤ fuel → ∃ doc, openDocument filtered secure clamps fuel (amended c (u :: us)).1 = .ok (doc, .dict k catalog) ∧
      ∃ F', ∀ fuel', F' ≤ fuel' → ∃ s', docPages (locate doc.env fuel) fuel' (.dict k catalog) doc.st = (ps.map asPage, none, s') := by
  have hsec : SectionsFrom (fun d raw data => filtered d raw = .ok data) _ _ _ := Or.inr (amended_sections (decoded := fun d raw data => filtered d raw = .ok data) h.base hundo (u :: us) h.each h.length)
  have hh := amended_holds (decoded := fun d raw data => filtered d raw = .ok data) h
  refine C91_pages secure clamps _ _ 0 _ _ _ _ (amended_header c (u :: us)) (amended_starts c (u :: us)) hb hsec hh ?_ a b catalog k
    ((amend_trailer h.base _ _ (by decide)).trans hroot) hcat hcls n g node ps hpages hnode htype htree
  exact .inl ((amend_trailer h.base _ _ (by decide)).trans (dictGet_notKey _ _ henc))

/-! ### Examples and counterexamples -/

/-- Objects 5 and 6 in an object stream, object 3 by itself. -/
def oldPack : Compressed :=
  { how := [], encode := fun d => d, items := [⟨3, 0, .str b!"three"⟩], members := [(5, .str b!"old"), (6, .str b!"six")], pack := 4, xref := 7, trailer := [(b!"Root", .ref 1 0)] }

theorem oldPack_ok : oldPack.Ok := by
  refine ⟨by simp [oldPack, WritableValue, Writable], ?_, ?_, by decide, by decide, by decide, by decide, by decide +kernel, by decide,
    by simp [oldPack, Writable, WritableEnts], by simp [oldPack], by decide, by simp [oldPack], by simp [oldPack, WritableEnts]⟩
  · intro i hi e data h v hv
    simp [oldPack] at hi
    subst hi
    cases h
  · intro m hm
    simp [oldPack] at hm
    rcases hm with rfl | rfl <;> simp [Writable]

/-- A new value of object 5. -/
def newFive : Amend := { first := 5, vals := [.str b!"new"], xref := 8, size := 9, trailer := [(b!"Root", .ref 1 0)] }

theorem newFive_ok : AmendsOk oldPack [newFive] := by
  refine ⟨oldPack_ok, ?_, by decide +kernel, by decide, ?_⟩
  · intro u hu
    rw [List.mem_singleton] at hu
    subst hu
    refine ⟨by simp [newFive, WritableValue, Writable], ?_, by decide, by simp [newFive, Writable, WritableEnts], by simp [newFive]⟩
    intro v hv e data h
    simp [newFive] at hv
    subst hv
    cases h
  · intro u hu
    rw [List.mem_singleton] at hu
    subst hu
    decide

/-- The hypotheses of C118 are met: object 5 was in the object stream and is written anew; object 3 is asked for before. -/
example : ∃ F, ∀ fuel, F ≤ fuel → ∃ o, openDoc plain true fuel (amended oldPack [newFive]).1 = .ok o ∧
    (locate o.env fuel 5 0 (asked o.env fuel [(3, 0), (5, 0), (3, 0)] o.st)).1 = .ok (.str b!"new") := by
  obtain ⟨F, hF⟩ := C118_read_back_partial (filtered := plain) true oldPack [newFive] newFive_ok (fun _ _ _ _ => rfl) (.inl rfl)
  refine ⟨F, fun fuel hf => ?_⟩
  obtain ⟨o, e, h⟩ := hF fuel hf
  exact ⟨o, e, h [(3, 0), (5, 0), (3, 0)] (by decide) 5 0 _ (by decide)⟩

/-- What is read after some references were resolved. -/
def readAfter (file : Bytes) (history : List (Nat × Nat)) (n g : Nat) : Res Obj :=
  match openDoc plain true 10 file with
  | .error e => .error e
  | .ok o => (locate o.env 60 n g (asked o.env 60 history o.st)).1

/-- C118 is false when another object of the object stream was asked for before: it is found by a scan of the body, which registers the old value of object 5. -/
theorem C118_order_counterexample : readAfter (amended oldPack [newFive]).1 [] 5 0 = .ok (.str b!"new") ∧
    readAfter (amended oldPack [newFive]).1 [(6, 0)] 5 0 = .ok (.str b!"old") := by decide +kernel

/-- An update whose new value of object 5 is in an object stream too, number 9: appended to the file of `oldPack`. -/
def newPack : Bytes :=
  oldPack.write ++ (showBody [⟨9, 0, .stream [(b!"Type", .name b!"ObjStm"), (b!"N", .int 1), (b!"First", .int 4), (b!"Length", .int 9)] b!"5 0 (new)"⟩] ++
    (showItem ⟨10, 0, .stream [(b!"Type", .name b!"XRef"), (b!"W", .arr [.int 1, .int 2, .int 1]), (b!"Index", .arr [.int 5, .int 1]), (b!"Size", .int 11),
        (b!"Prev", .int oldPack.offset), (b!"Length", .int 4), (b!"Root", .ref 1 0)] [2, 0, 9, 0]⟩ ++
      (b!"\nstartxref\n" ++ (showNat (oldPack.write.length + (showBody [⟨9, 0, .stream [(b!"Type", .name b!"ObjStm"), (b!"N", .int 1), (b!"First", .int 4), (b!"Length", .int 9)] b!"5 0 (new)"⟩]).length) ++
        b!"\n%%EOF\n"))))

/-- C118 is false when the new value is in an object stream: the entries for objects in object streams are not used, the first definition in the file is found. -/
theorem C118_packed_counterexample : readAfter newPack [] 5 0 = .ok (.str b!"old") := by decide +kernel

end PdfReader
