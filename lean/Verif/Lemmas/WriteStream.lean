/-
  A written file with an object stream and a cross-reference stream is well-formed.
-/
import Verif.Lemmas.WriteFile
import Verif.Lemmas.Whole

namespace PdfReader
open Spec

/-! ### What an object defines is determined -/

theorem objectAt_unique {data : Bytes} {p : Nat} {o o' : Obj} (h : ObjectAt data p o) (h' : ObjectAt data p o') : o = o' := by
  obtain ⟨s₀, t, s, r, e, h1, h2, h3⟩ := h
  obtain ⟨s₀', t', s', r', e', h1', h2', h3'⟩ := h'
  have a := parse_den openCfg openCfg_noDiv h2 h1 h3
  have b := parse_den openCfg openCfg_noDiv h2' h1' h3'
  rw [← e, e', b] at a
  injection a with a
  injection a with a
  exact a.symm

theorem defines_unique {decoded : List (Bytes × Obj) → Bytes → Bytes → Prop} (hfun : ∀ d raw a b, decoded d raw a → decoded d raw b → a = b)
    {n g : Nat} {o : Obj} {defs defs'} (h : Defines decoded n g o defs) (h' : Defines decoded n g o defs') : defs = defs' := by
  cases h with
  | plain _ hn => cases h' with
    | plain => rfl
    | pack first d raw dir rest ms os htype => exact absurd (hn d raw _ rfl htype) (by simp)
  | pack first d raw dir rest ms os htype hN hF hdata hdir hrest hlen hobj => cases h' with
    | plain _ hn => exact absurd (hn d raw _ rfl htype) (by simp)
    | pack first' _ _ dir' rest' ms' os' htype' hN' hF' hdata' hdir' hrest' hlen' hobj' =>
      rw [hN] at hN'
      rw [hF] at hF'
      have hl : ms.length = ms'.length := by
        have := Option.some.inj hN'
        simp at this
        omega
      have hfirst : first = first' := by
        have := Option.some.inj hF'
        simp at this
        omega
      have hd := hfun _ _ _ _ hdata hdata'
      obtain ⟨ks, k1, k2⟩ := objStmInts_text rest hrest ms dir hdir
      obtain ⟨ks', k1', k2'⟩ := objStmInts_text rest' hrest' ms' dir' hdir'
      rw [hd, hl, k1'] at k1
      injection k1 with k1
      have hms : ms = ms' := by rw [← k2, ← k2', k1]
      subst hms
      subst hfirst
      have hos : os = os' := by
        apply List.ext_getElem (by omega)
        intro i h1 h2
        have m1 : (ms[i], os[i]) ∈ ms.zip os := List.mem_iff_getElem.mpr ⟨i, by simp; omega, by simp⟩
        have m2 : (ms[i], os'[i]) ∈ ms.zip os' := List.mem_iff_getElem.mpr ⟨i, by simp; omega, by simp⟩
        have a1 := hobj _ m1
        have a2 := hobj' _ m2
        rw [hd] at a1
        exact objectAt_unique a1 a2
      rw [hos]

/-! ### The object stream -/

/-- Numbers and offsets. -/
def dirOf : Nat → List (Nat × Obj) → List (Nat × Nat)
  | _, [] => []
  | off, m :: ms => (m.1, off) :: dirOf (off + (showObj m.2).length + 1) ms

theorem dirOf_length : ∀ (ms : List (Nat × Obj)) (off : Nat), (dirOf off ms).length = ms.length
  | [], _ => rfl
  | m :: ms, off => by rw [dirOf, List.length_cons, dirOf_length, List.length_cons]

theorem dirOf_zip : ∀ (ms : List (Nat × Obj)) (off : Nat), ((dirOf off ms).zip (ms.map (·.2))).map (fun p => ((p.1.1, 0), p.2)) = ms.map fun m => ((m.1, 0), m.2)
  | [], _ => rfl
  | m :: ms, off => by rw [dirOf, List.map_cons, List.zip_cons_cons, List.map_cons, dirOf_zip, List.map_cons]

theorem sep_space : Sep [32] := .ws 32 _ (by simp [WS]) .nil

theorem dir_text : ∀ (ms : List (Nat × Obj)) (off : Nat), DirText (dirOf off ms) (showDirectory off ms)
  | [], _ => by rw [dirOf, showDirectory]; exact .nil
  | m :: ms, off => by
    rw [dirOf, showDirectory]
    have := DirText.cons [10] (showNat m.1) [32] (showNat off) _ _ sep_lf (showNat_digits _) sep_space (by simp) (showNat_digits _) ?_
      (dir_text ms (off + (showObj m.2).length + 1))
    · rw [showNat_val, showNat_val] at this
      exact this
    · cases ms with
      | nil => rw [showDirectory]; exact notStart_nil
      | cons m' ms => rw [showDirectory]; exact stop_lit rfl

theorem members_start {ms : List (Nat × Obj)} (h : ∀ m ∈ ms, Writable m.2) : showMembers ms = [] ∨ ∃ c t, showMembers ms = c :: t ∧ objStart c = true := by
  cases ms with
  | nil => exact Or.inl rfl
  | cons m ms =>
    obtain ⟨c, t, e, hc⟩ := den_head (den_show m.2 (h m (by simp)))
    rw [showMembers, e]
    exact Or.inr ⟨c, _, rfl, hc⟩

theorem members_at : ∀ (ms : List (Nat × Obj)) (off : Nat) (P : Bytes), P.length = off → (∀ m ∈ ms, Writable m.2 ∧ ∀ n, m.2 ≠ .int n) →
    ∀ p ∈ (dirOf off ms).zip (ms.map (·.2)), ObjectAt (P ++ showMembers ms) p.1.2 p.2
  | [], _, _, _, _, p, hp => by rw [dirOf] at hp; cases hp
  | m :: ms, off, P, hP, hm, p, hp => by
    rw [dirOf, List.map_cons, List.zip_cons_cons, List.mem_cons] at hp
    have hw := hm m (by simp)
    rcases hp with rfl | hp
    · refine ⟨[], showObj m.2, [10], showMembers ms, ?_, .nil, den_show _ hw.1, ⟨sep_lf, ?_, fun _ => stop_lit rfl, ?_, ?_⟩⟩
      · rw [← hP, List.drop_left, showMembers]
        rfl
      · rcases members_start (ms := ms) (fun x hx => (hm x (by simp [hx])).1) with e | ⟨c, t, e, hc⟩
        · rw [e]; exact notStart_nil
        · rw [e]; exact objStart_notSep hc
      · rintro _ ⟨n, h⟩
        exact absurd h (hw.2 n)
      · intro _
        rcases members_start (ms := ms) (fun x hx => (hm x (by simp [hx])).1) with e | ⟨c, t, e, hc⟩
        · rw [e]; exact notStart_nil
        · rw [e]; exact notStart_mk (objStart_facts c hc).2.2.2.2.2
    · have := members_at ms (off + (showObj m.2).length + 1) (P ++ (showObj m.2 ++ [10])) (by simp [hP]; omega) (fun x hx => hm x (by simp [hx])) p hp
      rw [showMembers]
      simpa using this

theorem objectAt_shift {P data : Bytes} {p : Nat} {o : Obj} (h : ObjectAt data p o) : ObjectAt (P ++ data) (P.length + p) o := by
  obtain ⟨s₀, t, s, r, e, h⟩ := h
  refine ⟨s₀, t, s, r, ?_, h⟩
  rw [← List.drop_drop, List.drop_left]
  exact e

/-- The data of the streams of a document are decoded. -/
def Decodes (decoded : List (Bytes × Obj) → Bytes → Bytes → Prop) (how : List (Bytes × Obj)) (encode : Bytes → Bytes) : Prop :=
  ∀ d data, dictGet d b!"Filter" = dictGet how b!"Filter" → dictGet d b!"DecodeParms" = dictGet how b!"DecodeParms" → decoded d (encode data) data

theorem dictGet_append (a b : List (Bytes × Obj)) (k : Bytes) : dictGet (a ++ b) k = match dictGet a k with | some v => some v | none => dictGet b k := by
  induction a with
  | nil => rfl
  | cons e a ih =>
    obtain ⟨k', v⟩ := e
    rw [List.cons_append, dictGet, dictGet]
    split
    · rfl
    · exact ih

theorem dictGet_notKey : ∀ (es : List (Bytes × Obj)) (k : Bytes), k ∉ es.map (·.1) → dictGet es k = none
  | [], _, _ => rfl
  | (k', v) :: es, k, h => by
    rw [List.map_cons, List.mem_cons] at h
    rw [dictGet, if_neg (fun e => h (Or.inl e.symm)), dictGet_notKey es k fun h' => h (Or.inr h')]

theorem writableEnts_append : ∀ a b : List (Bytes × Obj), WritableEnts a → WritableEnts b → WritableEnts (a ++ b)
  | [], _, _, h => h
  | (k, v) :: a, b, ha, hb => by
    rw [WritableEnts] at ha
    rw [List.cons_append, WritableEnts]
    exact ⟨ha.1, writableEnts_append a b ha.2 hb⟩

section
variable {decoded : List (Bytes × Obj) → Bytes → Bytes → Prop} {c : Compressed}

theorem how_other (hc : c.Ok) {k : Bytes} (h1 : k ≠ b!"Filter") (h2 : k ≠ b!"DecodeParms") : dictGet c.how k = none := by
  refine dictGet_notKey _ _ fun h => ?_
  have := hc.howOnly k h
  simp at this
  rcases this with e | e
  · exact h1 e
  · exact h2 e

theorem trailer_reserved (hc : c.Ok) {k : Bytes} (h : k ∈ [b!"Type", b!"W", b!"Length", b!"Size", b!"Index", b!"Prev", b!"Filter", b!"DecodeParms"]) :
    dictGet c.trailer k = none := dictGet_notKey _ _ (hc.reserved k h)

theorem pack_keys (hc : c.Ok) : (c.packDict.map (·.1)).Nodup := by
  unfold Compressed.packDict
  rw [List.map_append, List.nodup_append]
  refine ⟨by simp, hc.howKeys, ?_⟩
  intro a ha b hb e
  subst e
  have := hc.howOnly a hb
  simp at this ha
  rcases this with rfl | rfl <;> simp at ha

theorem pack_writable (hc : c.Ok) : WritableValue c.packItem.val := by
  refine ⟨pack_keys hc, ?_, by simp [Compressed.packDict]⟩
  refine writableEnts_append _ _ ?_ hc.howEnts
  simp [WritableEnts, Writable]

theorem pack_get (c : Compressed) : dictGet c.packDict b!"Type" = some (.name b!"ObjStm") ∧ dictGet c.packDict b!"N" = some (.int c.members.length) ∧
    dictGet c.packDict b!"First" = some (.int ((showDirectory 0 c.members).length + 1 : Nat)) ∧
    dictGet c.packDict b!"Filter" = dictGet c.how b!"Filter" ∧ dictGet c.packDict b!"DecodeParms" = dictGet c.how b!"DecodeParms" :=
  ⟨rfl, rfl, rfl, rfl, rfl⟩

theorem pack_defines_of (hmems : ∀ m ∈ c.members, Writable m.2 ∧ ∀ n, m.2 ≠ .int n) (hdec : Decodes decoded c.how c.encode) :
    Defines decoded c.pack 0 c.packItem.val (((c.pack, 0), c.packItem.val) :: c.members.map fun m => ((m.1, 0), m.2)) := by
  obtain ⟨g1, g2, g3, g4, g5⟩ := pack_get c
  have := Defines.pack (decoded := decoded) (n := c.pack) (g := 0) ((showDirectory 0 c.members).length + 1) c.packDict (c.encode c.packData)
    (showDirectory 0 c.members) (10 :: showMembers c.members) (dirOf 0 c.members) (c.members.map (·.2)) g1 (by rw [dirOf_length]; exact g2) g3
    (hdec _ _ g4 g5) (dir_text _ _) (stop_lit rfl) (by rw [dirOf_length, List.length_map]) ?_
  · rw [dirOf_zip] at this
    exact this
  · intro p hp
    have := objectAt_shift (P := showDirectory 0 c.members ++ [10]) (members_at c.members 0 [] rfl hmems p hp)
    simpa using this

theorem pack_defines (hc : c.Ok) (hdec : Decodes decoded c.how c.encode) :
    Defines decoded c.pack 0 c.packItem.val (((c.pack, 0), c.packItem.val) :: c.members.map fun m => ((m.1, 0), m.2)) :=
  pack_defines_of hc.mems hdec

/-! ### The cross-reference stream -/

theorem xref_keys (hc : c.Ok) : (c.xrefDict.map (·.1)).Nodup := by
  unfold Compressed.xrefDict
  rw [List.map_append, List.map_append, List.nodup_append, List.nodup_append]
  refine ⟨by simp, ⟨hc.howKeys, hc.keys, ?_⟩, ?_⟩
  · intro a ha b hb e
    subst e
    have := hc.howOnly a ha
    refine hc.reserved a ?_ hb
    simp at this ⊢
    rcases this with rfl | rfl <;> simp
  · intro a ha b hb e
    subst e
    rcases List.mem_append.mp hb with hb | hb
    · have := hc.howOnly a hb
      simp at this ha
      rcases this with rfl | rfl <;> simp at ha
    · refine hc.reserved a ?_ hb
      simp at ha ⊢
      rcases ha with rfl | rfl | rfl | rfl <;> simp

theorem xref_writable (hc : c.Ok) : WritableValue c.xrefItem.val := by
  refine ⟨xref_keys hc, ?_, by simp [Compressed.xrefDict]⟩
  refine writableEnts_append _ _ ?_ (writableEnts_append _ _ hc.howEnts hc.ents)
  simp [WritableEnts, Writable, WritableItems]

theorem xref_get (hc : c.Ok) : dictGet c.xrefDict b!"Type" = some (.name b!"XRef") ∧ dictGet c.xrefDict b!"W" = some (.arr [.int (1 : Nat), .int (4 : Nat), .int (4 : Nat)]) ∧
    dictGet c.xrefDict b!"Size" = some (.int c.size) ∧ dictGet c.xrefDict b!"Index" = none ∧ dictGet c.xrefDict b!"Prev" = none ∧
    dictGet c.xrefDict b!"Filter" = dictGet c.how b!"Filter" ∧ dictGet c.xrefDict b!"DecodeParms" = dictGet c.how b!"DecodeParms" := by
  have other : ∀ k, k ∉ [b!"Type", b!"W", b!"Length", b!"Size"] → dictGet c.xrefDict k = match dictGet c.how k with | some v => some v | none => dictGet c.trailer k := by
    intro k hk
    unfold Compressed.xrefDict
    rw [dictGet_append, dictGet_notKey _ k (by simpa using hk)]
    dsimp only
    rw [dictGet_append]
  refine ⟨rfl, rfl, rfl, ?_, ?_, ?_, ?_⟩
  · rw [other _ (by simp), how_other hc (by simp) (by simp)]
    exact trailer_reserved hc (by simp)
  · rw [other _ (by simp), how_other hc (by simp) (by simp)]
    exact trailer_reserved hc (by simp)
  · rw [other _ (by simp), trailer_reserved hc (by simp)]
    cases dictGet c.how b!"Filter" <;> rfl
  · rw [other _ (by simp), trailer_reserved hc (by simp)]
    cases dictGet c.how b!"DecodeParms" <;> rfl

theorem xref_trailer (hc : c.Ok) {k : Bytes} {v : Obj} (h : dictGet c.trailer k = some v) : dictGet c.xrefDict k = some v := by
  have hk : k ∈ c.trailer.map (·.1) := by
    by_cases hk : k ∈ c.trailer.map (·.1)
    · exact hk
    · rw [dictGet_notKey _ _ hk] at h; cases h
  have hres := fun x hx => hc.reserved x hx
  unfold Compressed.xrefDict
  rw [dictGet_append, dictGet_notKey, dictGet_append, how_other hc]
  · exact h
  · intro e; subst e; exact hres _ (by simp) hk
  · intro e; subst e; exact hres _ (by simp) hk
  · intro e
    simp at e
    rcases e with rfl | rfl | rfl | rfl <;> exact hres _ (by simp) hk

theorem ents_bound : ∀ (is : List FileItem) (off : Nat), ∀ e ∈ entsOf off is, e.2.offset < off + (showBody is).length
  | [], _, _, h => by cases h
  | i :: is, off, e, h => by
    rw [entsOf] at h
    rw [showBody_length is i (by simp)]
    rcases List.mem_cons.mp h with rfl | h
    · show off < _
      omega
    · have := ents_bound is _ e h
      omega

theorem write_length (c : Compressed) : c.offset < c.write.length := by
  unfold Compressed.write Compressed.offset
  have : (showBody (c.body ++ [c.xrefItem])).length ≥ (showBody c.body).length := by
    obtain ⟨rest, e⟩ := body_at c.body c.xrefItem []
    rw [e]
    simp
  simp only [List.length_append]
  simp
  omega

theorem positions_nums (hc : c.Ok) : (c.positions.map (·.1)).Nodup ∧ (∀ n ∈ c.positions.map (·.1), n ∉ c.members.map (·.1)) ∧
    c.positions.map (·.1) = (c.body ++ [c.xrefItem]).map (·.num) := by
  have e : c.positions.map (·.1) = (c.body ++ [c.xrefItem]).map (·.num) := by
    unfold Compressed.positions
    rw [List.map_append, ents_keys, List.map_append]
    rfl
  have e2 : (c.body ++ [c.xrefItem]).map (·.num) = c.items.map (·.num) ++ [c.pack, c.xref] := by
    simp [Compressed.body, Compressed.packItem, Compressed.xrefItem]
  have hn := hc.nums
  rw [List.nodup_append, List.nodup_append] at hn
  obtain ⟨h1, ⟨h2, h3, h4⟩, h5⟩ := hn
  refine ⟨?_, ?_, e⟩
  · rw [e, e2, List.nodup_append]
    exact ⟨h1, h3, fun a ha b hb => h5 a ha b (List.mem_append_right _ hb)⟩
  · intro n hn hm
    rw [e, e2, List.mem_append] at hn
    rcases hn with hn | hn
    · exact h5 n hn n (List.mem_append_left _ hm) rfl
    · exact h4 n hm n hn rfl

theorem row_fits (hc : c.Ok) (n : Nat) : Row.Fits (c.row n) 1 4 4 := by
  have hw := write_length c
  have hl := hc.length
  unfold Compressed.row
  split
  · rename_i e he
    have hm := List.mem_of_find?_eq_some he
    unfold Compressed.positions at hm
    rw [List.mem_append, List.mem_singleton] at hm
    rcases hm with hm | rfl
    · have := ents_bound _ _ _ hm
      obtain ⟨i, hi, h1, h2⟩ := ents_mem _ _ _ hm
      have ho : fileHeader.length + (showBody c.body).length = c.offset := rfl
      refine ⟨by simp, ?_, ?_⟩
      · show e.2.offset < _
        omega
      · show e.2.gen < _
        rw [← h2]
        unfold Compressed.body at hi
        rw [List.mem_append, List.mem_singleton] at hi
        rcases hi with hi | rfl
        · exact hc.gens i hi
        · simp [Compressed.packItem]
    · exact ⟨by simp, by show c.offset < _; omega, by simp⟩
  · split
    · rename_i hm
      refine ⟨by simp, hc.number, ?_⟩
      show List.findIdx _ _ < _
      have := List.findIdx_le_length (p := fun m : Nat × Obj => m.1 == n) (xs := c.members)
      have := hc.count
      omega
    · exact ⟨by simp, by simp, by simp⟩

theorem foldl_max : ∀ (l : List Nat) (a : Nat), a ≤ l.foldl max a ∧ ∀ n ∈ l, n ≤ l.foldl max a
  | [], a => ⟨Nat.le_refl a, fun _ h => by cases h⟩
  | x :: l, a => by
    obtain ⟨h1, h2⟩ := foldl_max l (max a x)
    rw [List.foldl_cons]
    refine ⟨by omega, fun n hn => ?_⟩
    rcases List.mem_cons.mp hn with rfl | hn
    · omega
    · exact h2 n hn

theorem size_bound (c : Compressed) : ∀ n ∈ (c.body ++ [c.xrefItem]).map (·.num), n < c.size := by
  intro n hn
  have := (foldl_max (c.items.map (·.num) ++ (c.members.map (·.1) ++ [c.pack, c.xref])) 0).2 n (by
    simp [Compressed.body, Compressed.packItem, Compressed.xrefItem] at hn ⊢
    rcases hn with h | h | h
    · exact Or.inl h
    · exact Or.inr (Or.inr (Or.inl h))
    · exact Or.inr (Or.inr (Or.inr h)))
  unfold Compressed.size
  omega

/-- What the cross-reference stream says. -/
def revC (c : Compressed) : Revision :=
  { inUse := fun n => if n < c.size then (if (c.row n).typ = 1 then some ((c.row n).f1, (c.row n).f2) else none) else none,
    dict := c.xrefDict, own := some (c.xref, 0, .stream c.xrefDict (c.encode c.xrefData)) }

theorem write_at (c : Compressed) : ∀ (a : List FileItem) (i : FileItem) (b : List FileItem), c.body ++ [c.xrefItem] = a ++ i :: b →
    ∃ rest, c.write.drop (fileHeader.length + (showBody a).length) = showItem i ++ rest := by
  intro a i b e
  obtain ⟨rest, h⟩ := body_at a i b
  unfold Compressed.write
  rw [e, h, ← List.drop_drop, List.drop_left, List.append_assoc, List.drop_left, List.append_assoc]
  exact ⟨_, rfl⟩

theorem xref_at_of (hc : c.Ok) (hdec : decoded c.xrefDict (c.encode c.xrefData) c.xrefData) : XRefStreamAt decoded c.write c.offset (revC c) := by
  obtain ⟨g1, g2, g3, g4, g5, g6, g7⟩ := xref_get hc
  obtain ⟨rest, hr⟩ := write_at c c.body c.xrefItem [] rfl
  refine ⟨c.xref, 0, c.encode c.xrefData, showItem c.xrefItem, rest, 0, 1, 4, 4, c.rows, rfl, item_text c.xrefItem (xref_writable hc), hr, g1,
    Or.inr ⟨g4, rfl, _, g3⟩, g2, by omega, ?_, hdec, ?_, ?_⟩
  · intro row h
    unfold Compressed.rows at h
    obtain ⟨n, _, rfl⟩ := List.mem_map.mp h
    exact row_fits hc n
  · intro i h
    have hs : i < c.size := by simpa [Compressed.rows] using h
    have hrow : c.rows[i] = c.row i := by simp [Compressed.rows]
    rw [hrow, Nat.zero_add]
    show (if i < c.size then _ else _) = _
    rw [if_pos hs]
  · rintro n (h | h)
    · omega
    · have hs : ¬ n < c.size := by simp [Compressed.rows] at h; omega
      show (if n < c.size then _ else _) = _
      rw [if_neg hs]

theorem xref_at (hc : c.Ok) (hdec : Decodes decoded c.how c.encode) : XRefStreamAt decoded c.write c.offset (revC c) :=
  xref_at_of hc (hdec _ _ (xref_get hc).2.2.2.2.2.1 (xref_get hc).2.2.2.2.2.2)

theorem positions_at (c : Compressed) {a : List FileItem} {i : FileItem} {b : List FileItem} (e : c.body ++ [c.xrefItem] = a ++ i :: b) :
    (i.num, ⟨fileHeader.length + (showBody a).length, i.gen, true⟩) ∈ c.positions := by
  have h := ents_at a i b fileHeader.length
  rw [← e] at h
  have : ∀ (x : List FileItem) (y : FileItem) (off : Nat), entsOf off (x ++ [y]) = entsOf off x ++ [(y.num, ⟨off + (showBody x).length, y.gen, true⟩)] := by
    intro x y
    induction x with
    | nil => intro off; simp [entsOf, showBody]
    | cons z x ih =>
      intro off
      rw [List.cons_append, entsOf, entsOf, ih, showBody_length x z (by simp)]
      rw [show off + ((showItem z).length + 1 + (showBody x).length) = off + (showItem z).length + 1 + (showBody x).length by omega]
      rfl
  rw [this] at h
  exact h

theorem inUse_item (hc : c.Ok) {a : List FileItem} {i : FileItem} {b : List FileItem} (e : c.body ++ [c.xrefItem] = a ++ i :: b) :
    (revC c).inUse i.num = some (fileHeader.length + (showBody a).length, i.gen) := by
  have hm := positions_at c e
  obtain ⟨h1, _, h3⟩ := positions_nums hc
  have hs := size_bound c i.num (List.mem_map.mpr ⟨i, by rw [e]; simp, rfl⟩)
  show (if i.num < c.size then _ else _) = _
  rw [if_pos hs]
  have hrow : c.row i.num = ⟨1, fileHeader.length + (showBody a).length, i.gen⟩ := by
    unfold Compressed.row
    cases hf : c.positions.find? fun e => e.1 == i.num with
    | none => exact absurd (List.find?_eq_none.mp hf _ hm) (by simp)
    | some x =>
      have hx := List.find?_some hf
      simp at hx
      rw [keys_unique h1 x _ (List.mem_of_find?_eq_some hf) hm hx]
  rw [hrow]
  rfl

theorem inUse_member (hc : c.Ok) {n : Nat} (h : n ∈ c.members.map (·.1)) : (revC c).inUse n = none := by
  obtain ⟨_, h2, _⟩ := positions_nums hc
  show (if n < c.size then _ else _) = _
  split
  · have hrow : (c.row n).typ ≠ 1 := by
      unfold Compressed.row
      cases hf : c.positions.find? fun e => e.1 == n with
      | some x =>
        have hx := List.find?_some hf
        simp at hx
        exact absurd h (h2 n (List.mem_map.mpr ⟨x, List.mem_of_find?_eq_some hf, hx⟩))
      | none =>
        dsimp only
        rw [if_pos h]
        simp
    rw [if_neg hrow]
  · rfl

/-! ### Contents -/

theorem content_item (hc : c.Ok) {i : FileItem} (h : i ∈ c.body ++ [c.xrefItem]) : c.content i.num i.gen = some i.val := by
  unfold Compressed.content
  cases hf : (c.body ++ [c.xrefItem]).find? fun j => j.num == i.num && j.gen == i.gen with
  | none => exact absurd (List.find?_eq_none.mp hf i h) (by simp)
  | some j =>
    have hj := List.find?_some hf
    simp at hj
    obtain ⟨h1, _, h3⟩ := positions_nums hc
    rw [h3] at h1
    have hn : ((c.body ++ [c.xrefItem]).map fun j => (j.num, j)).map (·.1) = (c.body ++ [c.xrefItem]).map (·.num) := by rw [List.map_map]; rfl
    have := keys_unique (l := (c.body ++ [c.xrefItem]).map fun j => (j.num, j)) (by rw [hn]; exact h1) (j.num, j) (i.num, i)
      (List.mem_map.mpr ⟨j, List.mem_of_find?_eq_some hf, rfl⟩) (List.mem_map.mpr ⟨i, h, rfl⟩) hj.1
    have := congrArg Prod.snd this
    dsimp only at this
    rw [this]

theorem content_member (hc : c.Ok) {m : Nat × Obj} (h : m ∈ c.members) : c.content m.1 0 = some m.2 := by
  obtain ⟨_, h2, h3⟩ := positions_nums hc
  have hnone : (c.body ++ [c.xrefItem]).find? (fun j => j.num == m.1 && j.gen == 0) = none := by
    rw [List.find?_eq_none]
    intro j hj he
    simp at he
    refine h2 m.1 ?_ (List.mem_map.mpr ⟨m, h, rfl⟩)
    rw [h3]
    exact List.mem_map.mpr ⟨j, hj, he.1⟩
  unfold Compressed.content
  rw [hnone]
  dsimp only
  rw [if_pos rfl]
  cases hf : c.members.find? fun x => x.1 == m.1 with
  | none => exact absurd (List.find?_eq_none.mp hf m h) (by simp)
  | some x =>
    have hx := List.find?_some hf
    simp at hx
    have hn := hc.nums
    rw [List.nodup_append, List.nodup_append] at hn
    rw [keys_unique hn.2.1.1 x m (List.mem_of_find?_eq_some hf) h hx]
    rfl

theorem content_cases {n g : Nat} {o : Obj} (h : c.content n g = some o) :
    (∃ i ∈ c.body ++ [c.xrefItem], i.num = n ∧ i.gen = g ∧ i.val = o) ∨ (g = 0 ∧ (n, o) ∈ c.members) := by
  unfold Compressed.content at h
  split at h
  · rename_i i hf
    have hi := List.find?_some hf
    simp at hi
    cases h
    exact Or.inl ⟨i, List.mem_of_find?_eq_some hf, hi.1, hi.2, rfl⟩
  · split at h
    · rename_i hg
      cases hf : c.members.find? fun x => x.1 == n with
      | none => rw [hf] at h; cases h
      | some x =>
        rw [hf] at h
        cases h
        have hx := List.find?_some hf
        simp at hx
        subst hx
        exact Or.inr ⟨hg, List.mem_of_find?_eq_some hf⟩
    · cases h

theorem body_cases (c : Compressed) {i : FileItem} (h : i ∈ c.body ++ [c.xrefItem]) : i ∈ c.items ∨ i = c.packItem ∨ i = c.xrefItem := by
  unfold Compressed.body at h
  simp at h
  exact h

theorem item_plain (hc : c.Ok) {i : FileItem} (h : i ∈ c.items) : NoPack i.val := by
  intro e data v he hv
  have hmem : ∀ es : List (Bytes × Obj), dictGet es b!"Type" = some v → (b!"Type", v) ∈ es := by
    intro es
    induction es with
    | nil => intro h; cases h
    | cons x es ih =>
      intro h
      obtain ⟨k, w⟩ := x
      rw [dictGet] at h
      split at h
      · rename_i hk
        cases h
        rw [← hk]
        simp
      · exact List.mem_cons_of_mem _ (ih h)
  exact hc.plain i h e data he v (hmem e hv)

theorem xref_plain (hc : c.Ok) : NoPack c.xrefItem.val := by
  intro e data v he hv
  cases he
  rw [(xref_get hc).1] at hv
  cases hv
  simp

theorem item_defs (hc : c.Ok) (hdec : Decodes decoded c.how c.encode) {i : FileItem} (h : i ∈ c.body ++ [c.xrefItem]) :
    WritableValue i.val ∧ ∃ defs, Defines decoded i.num i.gen i.val defs ∧ (∀ d ∈ defs, c.content d.1.1 d.1.2 = some d.2) ∧
      (i = c.packItem → ∀ m ∈ c.members, ((m.1, 0), m.2) ∈ defs) := by
  have one : NoPack i.val → ∃ defs, Defines decoded i.num i.gen i.val defs ∧ (∀ d ∈ defs, c.content d.1.1 d.1.2 = some d.2) ∧ (i = c.packItem → ∀ m ∈ c.members, ((m.1, 0), m.2) ∈ defs) := by
    intro hn
    refine ⟨_, .plain _ hn, ?_, ?_⟩
    · intro d hd
      simp at hd
      subst hd
      exact content_item hc h
    · rintro rfl
      exact absurd (hn _ _ _ rfl (pack_get c).1) (by simp)
  rcases body_cases c h with hi | rfl | rfl
  · exact ⟨hc.vals i hi, one (item_plain hc hi)⟩
  · refine ⟨pack_writable hc, _, pack_defines hc hdec, ?_, ?_⟩
    · intro d hd
      rcases List.mem_cons.mp hd with rfl | hd
      · exact content_item hc h
      · obtain ⟨m, hm, rfl⟩ := List.mem_map.mp hd
        exact content_member hc hm
    · intro _ m hm
      exact List.mem_cons_of_mem _ (List.mem_map.mpr ⟨m, hm, rfl⟩)
  · exact ⟨xref_writable hc, one (xref_plain hc)⟩

theorem body_text {file : Bytes} {revs : List Revision} : ∀ (is : List FileItem) (s : Bytes), Sep s →
    (∀ i ∈ is, WritableValue i.val ∧ c.content i.num i.gen = some i.val ∧ ∃ defs, Defines decoded i.num i.gen i.val defs) →
    ∃ es body tl, s ++ showBody is = body ++ tl ∧ FileBody decoded AsIs file revs c.content es body ∧
      ∀ i ∈ is, ∃ defs ∈ es, Defines decoded i.num i.gen i.val defs
  | [], s, _, _ => ⟨[], [], s ++ showBody [], rfl, .nil, fun _ h => by cases h⟩
  | i :: is, s, hs, h => by
    obtain ⟨hw, hv, defs, hd⟩ := h i (by simp)
    obtain ⟨es, body, tl, e, hb, hm⟩ := body_text is [10] sep_lf (fun j hj => h j (by simp [hj]))
    refine ⟨defs :: es, s ++ (showItem i ++ body), tl, ?_, .obj i.num i.gen i.val i.val defs es s (showItem i) body hs (Or.inl (item_text i hw)) rfl hv hd hb, ?_⟩
    · rw [showBody]
      have : (10 :: showBody is : Bytes) = body ++ tl := e
      rw [this]
      simp
    · intro j hj
      rcases List.mem_cons.mp hj with rfl | hj
      · exact ⟨defs, by simp, hd⟩
      · obtain ⟨defs', h1, h2⟩ := hm j hj
        exact ⟨defs', by simp [h1], h2⟩

theorem sep_header : Sep fileHeader := by
  have : fileHeader = 37 :: (b!"PDF-1.7" ++ 10 :: []) := rfl
  rw [this]
  exact .comment _ _ _ (by simp [Eol]) (by simp [Eol]) .nil

theorem holds_compressed (hc : c.Ok) (hdec : Decodes decoded c.how c.encode) (hfun : ∀ d raw a b, decoded d raw a → decoded d raw b → a = b) :
    Holds decoded AsIs c.write 0 [revC c] c.content := by
  have hdefs := fun {i} (h : i ∈ c.body ++ [c.xrefItem]) => item_defs hc hdec h
  refine ⟨?_, ⟨(c.body ++ [c.xrefItem]).map (fun i => (i.num, i.gen)) ++ c.members.map fun m => (m.1, 0), ?_⟩, ?_, ?_⟩
  · obtain ⟨es, body, tl, e, hb, hm⟩ := body_text (decoded := decoded) (c := c) (file := c.write) (revs := [revC c]) (c.body ++ [c.xrefItem]) fileHeader sep_header
      (fun i hi => ⟨(hdefs hi).1, content_item hc hi, by obtain ⟨d, h, _⟩ := (hdefs hi).2; exact ⟨d, h⟩⟩)
    refine ⟨es, body, tl ++ (b!"startxref" ++ ([10] ++ (showNat c.offset ++ ([10] ++ (b!"%%EOF" ++ [10]))))), ?_, hb, fun n g o h => ?_⟩
    · rw [List.drop_zero]
      unfold Compressed.write
      rw [← List.append_assoc, e]
      simp
    · rcases content_cases h with ⟨i, hi, rfl, rfl, rfl⟩ | ⟨rfl, hmem⟩
      · left
        obtain ⟨a, b, e⟩ := List.append_of_mem hi
        obtain ⟨rest, hr⟩ := write_at c a i b e
        obtain ⟨hw, defs, hd, _⟩ := hdefs hi
        exact ⟨_, showItem i, rest, _, defs, ⟨[], revC c, [], rfl, (fun q hq => by simp at hq), inUse_item hc e⟩, hr, Or.inl (item_text i hw), rfl, hd⟩
      · right
        refine ⟨?_, ?_⟩
        · intro r hr off
          simp at hr
          subst hr
          rw [inUse_member hc (List.mem_map.mpr ⟨_, hmem, rfl⟩)]
          simp
        · have hp : c.packItem ∈ c.body ++ [c.xrefItem] := by simp [Compressed.body]
          obtain ⟨defs, h1, h2⟩ := hm _ hp
          obtain ⟨_, defs', h3, _, h4⟩ := hdefs hp
          rw [defines_unique hfun h2 h3] at h1
          exact ⟨_, h1, h4 rfl _ hmem⟩
  · intro n g h
    cases hcnt : c.content n g with
    | none => exact absurd hcnt h
    | some o =>
      rcases content_cases hcnt with ⟨i, hi, rfl, rfl, rfl⟩ | ⟨rfl, hmem⟩
      · exact List.mem_append_left _ (List.mem_map.mpr ⟨i, hi, rfl⟩)
      · exact List.mem_append_right _ (List.mem_map.mpr ⟨_, hmem, rfl⟩)
  · intro n g o defs h hd d hm
    rcases content_cases h with ⟨i, hi, rfl, rfl, rfl⟩ | ⟨rfl, hmem⟩
    · obtain ⟨_, defs', h1, h2, _⟩ := hdefs hi
      rw [defines_unique hfun hd h1] at hm
      exact h2 d hm
    · have hn : NoPack o := by
        rintro e data v rfl
        exact absurd (hc.mems _ hmem).1 (by simp [Writable])
      cases hd with
      | plain =>
        simp at hm
        subst hm
        exact h
      | pack first e raw dir rest ms os htype => exact absurd (hn e raw _ rfl htype) (by simp)
  · intro r hr n g v o ho hcnt
    simp at hr
    subst hr
    cases ho
    have := content_item hc (i := c.xrefItem) (by simp)
    have hx : c.content c.xref 0 = some (.stream c.xrefDict (c.encode c.xrefData)) := this
    rw [hx] at hcnt
    cases hcnt
    rfl

theorem sections_compressed (hc : c.Ok) (hdec : Decodes decoded c.how c.encode) : SectionsFrom decoded c.write c.offset [revC c] :=
  Or.inr (.oldest _ _ (xref_at hc hdec) (xref_get hc).2.2.2.2.1)

end

/-- The end of a written file. -/
theorem starts_from {file body : Bytes} (off : Nat) (hb : body ≠ [])
    (hf : file = body ++ (b!"startxref" ++ ([10] ++ (showNat off ++ ([10] ++ (b!"%%EOF" ++ [10])))))) : StartsAt file off := by
  have hdig := (showNat_digits off).2
  have hd115 : (115 : Byte) ∉ showNat off := fun h => by have := hdig _ h; rw [digit_iff] at this; revert this; decide
  refine ⟨body, [10], showNat off, [10], [10], hf, hb, sep_lf, showNat_digits off, showNat_val off, ?_, by simp, ?_, ?_⟩
  · exact notStart_mk (by simp [Digit])
  · intro k hk
    obtain ⟨rest, hr⟩ := occurs_drop hk
    have hf2 : file = (body ++ (b!"startxref" ++ ([10] ++ (showNat off ++ [10])))) ++ (b!"%%EOF" ++ [10]) := by rw [hf]; simp
    by_cases hk : k ≤ (body ++ (b!"startxref" ++ ([10] ++ (showNat off ++ [10])))).length
    · exact hk
    · exfalso
      obtain ⟨m, e⟩ : ∃ m, k = (body ++ (b!"startxref" ++ ([10] ++ (showNat off ++ [10])))).length + (m + 1) := ⟨k - (body ++ (b!"startxref" ++ ([10] ++ (showNat off ++ [10])))).length - 1, by omega⟩
      rw [hf2, e, ← List.drop_drop, List.drop_left] at hr
      rcases m with _ | _ | _ | _ | _ | _ | m <;> simp at hr
  · intro k hk _
    obtain ⟨rest, hr⟩ := occurs_drop hk
    refine not_later (pat := 115) (c := 115) (t := b!"tartxref" ++ ([10] ++ (showNat off ++ ([10] ++ (b!"%%EOF" ++ [10]))))) (rest := b!"tartxref" ++ rest) hf ?_ hr
    simp [hd115]

theorem starts_compressed (c : Compressed) : StartsAt c.write c.offset :=
  starts_from c.offset (body := fileHeader ++ showBody (c.body ++ [c.xrefItem])) (by simp [fileHeader]) (by unfold Compressed.write; simp)

theorem header_compressed (c : Compressed) : HeaderAt c.write b!"1.7" 0 := by
  refine ⟨[], b!"%PDF-1.7", [10] ++ (showBody (c.body ++ [c.xrefItem]) ++ (b!"startxref" ++ ([10] ++ (showNat c.offset ++ ([10] ++ (b!"%%EOF" ++ [10])))))), rfl, rfl,
    ?_, Or.inl rfl, fun a h' b v' _ _ => Nat.zero_le _, by simp, ?_⟩
  · exact .pdf b!"1.7" ⟨49, 55, by simp [Digit], by simp [Digit], rfl⟩
  · unfold Compressed.write
    simp [fileHeader]
    omega

end PdfReader
