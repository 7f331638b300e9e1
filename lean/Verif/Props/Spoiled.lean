/-
  C139: damaged objects.
-/
import Verif.Spec.Spoiled
import Verif.Props.Amend
import Verif.Props.Crash

namespace PdfReader

open Spec

theorem show_closing (d : Draft) (start : Nat) (prev : Option Nat) : d.show start prev = showBody d.items ++ d.closing start prev := by
  unfold Draft.closing Draft.show
  rw [List.drop_left]

theorem spoiledBody_length {may : Nat → Nat → Prop} {is : List FileItem} {t : Bytes} (h : SpoiledBody may is t) : t.length = (showBody is).length := by
  induction h with
  | nil => rfl
  | kept i is t _ ih => rw [showBody]; simp [ih]
  | spoiled i is junk t _ hl _ ih => rw [showBody]; simp [ih, hl]

theorem spoiledDrafts_length {bad : Nat → Nat → Bool} {start : Nat} {prev : Option Nat} {ds : List Draft} {t : Bytes} (h : SpoiledDrafts bad start prev ds t) :
    t.length = (showDrafts start prev ds).length := by
  induction h with
  | nil => rfl
  | cons start prev d ds body t hb _ ih => rw [showDrafts, show_closing]; simp only [List.length_append]; rw [ih, spoiledBody_length hb, show_closing]; simp only [List.length_append]; omega

/-- An object which may not be damaged is there. -/
theorem spoiledBody_at {may : Nat → Nat → Prop} : ∀ (a : List FileItem) (i : FileItem) (b : List FileItem) (t : Bytes), SpoiledBody may (a ++ i :: b) t → ¬ may i.num i.gen →
    ∃ rest, t.drop (showBody a).length = showItem i ++ rest
  | [], i, b, t, h, hi => by
    cases h with
    | kept _ _ t h => exact ⟨10 :: t, rfl⟩
    | spoiled _ _ junk t hm _ _ => exact absurd hm hi
  | j :: a, i, b, t, h, hi => by
    have key : ∀ (x t : Bytes), x.length = (showItem j).length → SpoiledBody may (a ++ i :: b) t → ∃ rest, (x ++ (10 :: t)).drop (showBody (j :: a)).length = showItem i ++ rest := by
      intro x t hx ht
      obtain ⟨rest, e⟩ := spoiledBody_at a i b t ht hi
      refine ⟨rest, ?_⟩
      rw [showBody, List.length_append, List.length_cons, ← hx, ← List.drop_drop, List.drop_left, ← e]
      rfl
    cases h with
    | kept _ _ t h => exact key _ t rfl h
    | spoiled _ _ junk t _ hl h => exact key _ t hl h

theorem spoiled_updates {bad : Nat → Nat → Bool} {file : Bytes} (hs : file.length < 10 ^ 10) : ∀ (ds : List Draft) (start : Nat) (prev : Option Nat) (P t : Bytes) (acc : List Revision), ds ≠ [] →
    (∀ d ∈ ds, d.Ok) → SpoiledDrafts bad start prev ds t → file = P ++ t → P.length = start → 0 < start →
    (acc = [] ∧ prev = none) ∨ (∃ p, prev = some p ∧ 0 < p ∧ Updates (TableAt file) p acc) →
    Updates (TableAt file) (lastOff start prev ds) (revsOf start prev ds ++ acc) := by
  intro ds
  induction ds with
  | nil => intro _ _ _ _ _ h; exact absurd rfl h
  | cons d ds ih =>
    intro start prev P t acc _ hok hsp hf hP hpos hacc
    have hd := hok d (by simp)
    cases hsp with
    | cons _ _ _ _ body t hb hsp =>
      have hlen := spoiledBody_length hb
      have ht : TableAt file (start + (showBody d.items).length) (revOf d start prev) := by
        have h0 := table_at hd (file := P ++ (d.show start prev ++ t)) (P := P) (Q := t) (start := start) (prev := prev) rfl hP (by
          rw [show_closing]; rw [hf] at hs; simp only [List.length_append] at hs ⊢; omega)
        unfold TableAt at h0 ⊢
        have e : file.drop (start + (showBody d.items).length) = (P ++ (d.show start prev ++ t)).drop (start + (showBody d.items).length) := by
          rw [hf, ← hP, ← List.drop_drop, List.drop_left, ← List.drop_drop, List.drop_left, ← hlen, List.drop_left, hlen, show_closing, List.append_assoc, List.drop_left]
        rw [e]
        exact h0
      have hu : Updates (TableAt file) (start + (showBody d.items).length) (revOf d start prev :: acc) := by
        rcases hacc with ⟨rfl, rfl⟩ | ⟨p, rfl, hp, hu⟩
        · exact .oldest _ _ ht (dict_noPrev hd)
        · exact .newer _ p _ _ ht (dict_prev hd p) hp hu
      rw [revsOf, List.append_assoc]
      cases ds with
      | nil => rw [revsOf, List.nil_append, lastOff]; exact hu
      | cons d' ds =>
        rw [lastOff]
        refine ih _ _ (P ++ (body ++ d.closing start prev)) t (revOf d start prev :: acc) (by simp) (fun x hx => hok x (by simp [List.mem_cons.mp hx])) hsp ?_ ?_ (by omega)
          (Or.inr ⟨_, rfl, by omega, hu⟩)
        · rw [hf]; simp
        · rw [show_closing]; simp only [List.length_append]; omega

theorem spoiled_end {bad : Nat → Nat → Bool} : ∀ (ds : List Draft) (start : Nat) (prev : Option Nat) (t : Bytes), ds ≠ [] → SpoiledDrafts bad start prev ds t → ∃ body,
    t = body ++ (b!"startxref" ++ ([10] ++ (showNat (lastOff start prev ds) ++ ([10] ++ (b!"%%EOF" ++ [10]))))) := by
  intro ds
  induction ds with
  | nil => intro _ _ _ h; exact absurd rfl h
  | cons d ds ih =>
    intro start prev t _ hsp
    cases hsp with
    | cons _ _ _ _ body t hb hsp =>
      cases ds with
      | nil =>
        cases hsp with
        | nil =>
          rw [lastOff]
          refine ⟨body ++ (b!"xref" ++ ([10] ++ (showTable start d.items ++ ([] ++ (b!"trailer" ++ ([10] ++ (60 :: 60 :: (showEnts (d.dict prev) ++ 62 :: 62 :: [10])))))))), ?_⟩
          unfold Draft.closing Draft.show
          rw [List.drop_left]
          simp
      | cons d' ds =>
        obtain ⟨front, e⟩ := ih _ _ _ (by simp) hsp
        rw [lastOff, e]
        exact ⟨body ++ (d.closing start prev ++ front), by simp⟩

theorem spoiled_content {bad : Nat → Nat → Bool} {file : Bytes} : ∀ (ds : List Draft) (start : Nat) (prev : Option Nat) (P t : Bytes) (n g : Nat) (o : Obj),
    (∀ d ∈ ds, d.Ok) → SpoiledDrafts bad start prev ds t → file = P ++ t → P.length = start → bad n g = false → contentOf ds n g = some o →
    ∃ off rest d i, CurrentAt (revsOf start prev ds) n g off ∧ file.drop off = showItem i ++ rest ∧ d ∈ ds ∧ i ∈ d.items ∧ i.num = n ∧ i.gen = g ∧ i.val = o := by
  intro ds
  induction ds with
  | nil => intro _ _ _ _ _ _ _ _ _ _ _ _ h; cases h
  | cons d ds ih =>
    intro start prev P t n g o hok hsp hf hP hbad h
    rw [contentOf_cons] at h
    cases hsp with
    | cons _ _ _ _ body t hb hsp =>
      have hlen := spoiledBody_length hb
      cases hc : contentOf ds n g with
      | some o' =>
        rw [hc] at h
        cases h
        obtain ⟨off, rest, d', i, ⟨newer, r, older, c1, c2, c3⟩, h2, h3, h4⟩ := ih _ _ (P ++ (body ++ d.closing start prev)) t n g o
          (fun x hx => hok x (by simp [hx])) hsp (by rw [hf]; simp) (by rw [show_closing]; simp only [List.length_append]; omega) hbad hc
        refine ⟨off, rest, d', i, ⟨newer, r, older ++ [revOf d start prev], ?_, c2, c3⟩, h2, by simp [h3], h4⟩
        rw [revsOf, c1]
        simp
      | none =>
        rw [hc] at h
        dsimp only at h
        obtain ⟨a, i, b, e, h1, h2, h3⟩ := find_some h
        have hu := inUse_at (hok d (by simp)) e start prev
        rw [h1, h2] at hu
        have hmay : ¬ (bad i.num i.gen = true ∨ contentOf ds i.num i.gen ≠ none) := by
          rw [h1, h2, hbad, hc]; simp
        rw [e] at hb
        obtain ⟨rest, hat⟩ := spoiledBody_at a i b body hb hmay
        have hle : (showBody a).length ≤ body.length := by
          by_cases hle : (showBody a).length ≤ body.length
          · exact hle
          · rw [List.drop_eq_nil_of_le (by omega)] at hat
            have := congrArg List.length hat
            simp [showItem] at this
        have hd : file.drop (start + (showBody a).length) = showItem i ++ (rest ++ (d.closing start prev ++ t)) := by
          rw [hf, ← hP, ← List.drop_drop, List.drop_left, List.drop_append_of_le_length hle, hat, List.append_assoc]
        refine ⟨_, _, d, i, ⟨revsOf (start + (d.show start prev).length) (some (start + (showBody d.items).length)) ds, revOf d start prev, [], ?_, content_none ds _ _ n g hc, hu⟩, hd, by simp, by rw [e]; simp, h1, h2, h3⟩
        rw [revsOf]

theorem spoiled_holds {decoded : List (Bytes × Obj) → Bytes → Bytes → Prop} {bad : Nat → Nat → Bool} {ds : List Draft} {file : Bytes} (hok : ∀ d ∈ ds, d.Ok) (h : Spoiled bad ds file) :
    Spec.Holds decoded AsIs file 0 (revsOf fileHeader.length none ds) (intact bad ds) := by
  obtain ⟨t, hf, hsp⟩ := h
  have hat : ∀ n g o, intact bad ds n g = some o → ∃ off rest d i, CurrentAt (revsOf fileHeader.length none ds) n g off ∧ file.drop off = showItem i ++ rest ∧
      d ∈ ds ∧ i ∈ d.items ∧ i.num = n ∧ i.gen = g ∧ i.val = o := by
    intro n g o ho
    unfold intact at ho
    cases hb : bad n g with
    | true => rw [hb] at ho; cases ho
    | false => rw [hb] at ho; exact spoiled_content ds fileHeader.length none fileHeader t n g o hok hsp hf rfl hb ho
  refine holds_listed (fun n g x hx => ?_) ⟨ds.flatMap fun d => d.items.map fun i => (i.num, i.gen), fun n g hn => ?_⟩ ?_
  · obtain ⟨off, rest, d, i, h1, h2, h3, h4, rfl, rfl, rfl⟩ := hat n g x hx
    exact ⟨item_noPack (hok d h3) h4, off, showItem i, rest, h1, h2, Or.inl (item_text i ((hok d h3).vals i h4))⟩
  · cases hc : intact bad ds n g with
    | none => exact absurd hc hn
    | some o =>
      obtain ⟨off, rest, d, i, h1, h2, h3, h4, rfl, rfl, rfl⟩ := hat n g o hc
      exact List.mem_flatMap.mpr ⟨d, h3, List.mem_map.mpr ⟨i, h4, rfl⟩⟩
  · intro r hr n g v o ho
    rw [own_none ds _ _ r hr] at ho
    cases ho

theorem spoiled_starts {bad : Nat → Nat → Bool} {ds : List Draft} {file : Bytes} (hne : ds ≠ []) (h : Spoiled bad ds file) : StartsAt file (lastOff fileHeader.length none ds) := by
  obtain ⟨t, hf, hsp⟩ := h
  obtain ⟨body, e⟩ := spoiled_end ds _ _ t hne hsp
  exact starts_of (body := fileHeader ++ body) (by rw [hf, e]; simp) (by simp [fileHeader])

theorem spoiled_header {bad : Nat → Nat → Bool} {ds : List Draft} {file : Bytes} (hne : ds ≠ []) (h : Spoiled bad ds file) : HeaderAt file b!"1.7" 0 := by
  obtain ⟨t, hf, hsp⟩ := h
  obtain ⟨body, e⟩ := spoiled_end ds _ _ t hne hsp
  refine header_front hf ?_
  rw [hf, e]
  simp [fileHeader]
  omega

theorem spoiled_sections {bad : Nat → Nat → Bool} {ds : List Draft} {file : Bytes} (hne : ds ≠ []) (hok : ∀ d ∈ ds, d.Ok) (h : Spoiled bad ds file) (hs : file.length < 10 ^ 10)
    (decoded : List (Bytes × Obj) → Bytes → Bytes → Prop) : SectionsFrom decoded file (lastOff fileHeader.length none ds) (revsOf fileHeader.length none ds) := by
  obtain ⟨t, hf, hsp⟩ := h
  have := spoiled_updates hs ds fileHeader.length none fileHeader t [] hne hok hsp hf rfl (by simp [fileHeader]) (Or.inl ⟨rfl, rfl⟩)
  rw [List.append_nil] at this
  exact Or.inl this

section
variable {filtered : List (Bytes × Obj) → Bytes → Res Bytes}

/-- C139: a file was written as a sequence of revisions and some of its objects were overwritten, each by as many bytes, any. It opens, with the entries of its trailer, and
every object which was not overwritten is read back with its newest value, whichever of them were read before. What is missing: overwritten objects may have been read before
(`C139_asked`). -/
theorem C139_intact_partial (clamps : Bool) (older : List Draft) (last : Draft) (hok : ∀ d ∈ older ++ [last], d.Ok) (bad : Nat → Nat → Bool) (file : Bytes)
    (hsp : Spoiled bad (older ++ [last]) file) (hsmall : file.length < 10 ^ 10) (hb : clamps = true ∨ 1024 ≤ file.length) :
    ∃ F, ∀ fuel, F ≤ fuel → ∃ o, openDoc filtered clamps fuel file = .ok o ∧ o.version = b!"1.7" ∧
      (∀ key ∈ [b!"Size", b!"Root", b!"Encrypt", b!"Info", b!"ID"], ∀ v, dictGet last.trailer key = some v → dictGet o.trailer key = some v) ∧
      ∀ history : List (Nat × Nat), (∀ k ∈ history, intact bad (older ++ [last]) k.1 k.2 ≠ none) → ∀ n g x, bad n g = false → contentOf (older ++ [last]) n g = some x →
        (locate o.env fuel n g (asked o.env fuel history o.st)).1 = .ok x := by
  have hne : older ++ [last] ≠ [] := by simp
  have hsec := spoiled_sections hne hok hsp hsmall (fun d raw data => filtered d raw = .ok data)
  have hc := spoiled_holds (decoded := fun d raw data => filtered d raw = .ok data) hok hsp
  have hh := spoiled_header hne hsp
  have hst := spoiled_starts hne hsp
  obtain ⟨r, rs, e, prev, hdict⟩ := revs_cons older last fileHeader.length none
  rw [e] at hsec hc
  obtain ⟨F, hF⟩ := C90_delivered clamps _ _ 0 _ r rs _ hh hst hb hsec hc
  refine ⟨F + rs.length + 1, fun fuel hf => ?_⟩
  obtain ⟨o, h1, h2, h3, _⟩ := C89_opens (filtered := filtered) clamps _ _ 0 _ r rs hh hst hb hsec fuel (by omega)
  obtain ⟨o', h1', h4⟩ := hF fuel (by omega)
  rw [h1] at h1'
  cases h1'
  refine ⟨o, h1, h2, fun key hkey v hv => ?_, fun history hh n g x hbad hx => h4 history hh n g x ?_⟩
  · refine (h3 key ?_).1 v ?_
    · simp only [List.mem_cons, List.not_mem_nil, or_false] at hkey ⊢
      rcases hkey with h | h | h | h | h <;> simp [h]
    · rw [hdict, dict_other, hv]
      simp only [List.mem_cons, List.not_mem_nil, or_false] at hkey
      rcases hkey with rfl | rfl | rfl | rfl | rfl <;> decide
  · unfold intact
    rw [hbad]
    exact hx

/-- … for the pages: if catalog, page tree and pages are not damaged, the pages are those of the tree. -/
theorem C139_pages (secure : Opened → Obj → Res Opened) (clamps : Bool) (older : List Draft) (last : Draft) (hok : ∀ d ∈ older ++ [last], d.Ok) (bad : Nat → Nat → Bool)
    (file : Bytes) (hsp : Spoiled bad (older ++ [last]) file) (hsmall : file.length < 10 ^ 10) (hb : clamps = true ∨ 1024 ≤ file.length)
    (henc : NoEntry last.trailer b!"Encrypt") (a b : Nat) (catalog : List (Bytes × Obj)) (c : Option Bytes)
    (hroot : dictGet last.trailer b!"Root" = some (.ref a b)) (hcat : intact bad (older ++ [last]) a b = some (.dict catalog)) (hcls : DictKind catalog c)
    (n g : Nat) (node : List (Bytes × Obj)) (ps : List (List (Bytes × Obj))) (hpages : dictGet catalog b!"Pages" = some (.ref n g))
    (hnode : intact bad (older ++ [last]) n g = some (.dict node)) (htype : dictGet node b!"Type" = some (.name b!"Pages"))
    (htree : PageTree (intact bad (older ++ [last])) n g ps) :
    ∃ F, ∀ fuel, F ≤ fuel → ∃ doc, openDocument filtered secure clamps fuel file = .ok (doc, .dict c catalog) ∧
      ∃ F', ∀ fuel', F' ≤ fuel' → ∃ s', docPages (locate doc.env fuel) fuel' (.dict c catalog) doc.st = (ps.map asPage, none, s') := by
  have hne : older ++ [last] ≠ [] := by simp
  have hsec := spoiled_sections hne hok hsp hsmall (fun d raw data => filtered d raw = .ok data)
  have hc := spoiled_holds (decoded := fun d raw data => filtered d raw = .ok data) hok hsp
  obtain ⟨r, rs, e, prev, hdict⟩ := revs_cons older last fileHeader.length none
  rw [e] at hsec hc
  refine C91_pages secure clamps _ _ 0 _ r rs _ (spoiled_header hne hsp) (spoiled_starts hne hsp) hb hsec hc ?_ a b catalog c ?_ hcat hcls n g node ps hpages hnode htype htree
  · unfold NoEntry
    rw [hdict, dict_other _ _ _ (by decide)]
    exact henc
  · rw [hdict, dict_other _ _ _ (by decide)]
    exact hroot

end

/-! ### Examples -/

/-- What is found in place of an overwritten object which is asked for may be taken for another one, which is then wrong: `1 0 obj` has been overwritten by `2 0 obj`. -/
def mixedDraft : Draft := { items := [⟨1, 0, .str b!"one and all"⟩, ⟨2, 0, .int 7⟩], trailer := [(b!"Size", .int 3)] }

def mixedFile : Bytes := fileHeader ++ ((b!"2 0 obj\n(one and all)\nendobj" ++ (10 :: (showItem ⟨2, 0, .int 7⟩ ++ [10]))) ++ (mixedDraft.closing fileHeader.length none ++ []))

theorem mixed_spoiled : Spoiled (fun n _ => n == 1) [mixedDraft] mixedFile :=
  ⟨_, rfl, .cons _ _ _ _ _ _ (.spoiled _ _ b!"2 0 obj\n(one and all)\nendobj" _ (Or.inl rfl) (by decide +kernel) (.kept _ _ [] .nil)) (.nil _ _)⟩

theorem C139_asked : (openDoc (fun _ raw => .ok raw) true 50 mixedFile).map (fun o => ((locate o.env 50 2 0 o.st).1, (locate o.env 50 2 0 (asked o.env 50 [(1, 0)] o.st)).1)) =
    .ok (.ok (.int 7), .ok (.str b!"one and all")) := by
  decide +kernel

/-- The replaced second page and the stream are overwritten in the file of two revisions. -/
def spoiledFile (j j' : Bytes) : Bytes :=
  fileHeader ++ ((showItem firstDraft.items[0] ++ ((10 : Byte) :: (showItem firstDraft.items[1] ++ ((10 : Byte) :: (showItem firstDraft.items[2] ++ ((10 : Byte) :: (j ++ ((10 : Byte) :: [])))))))) ++
    (firstDraft.closing fileHeader.length none ++
      ((showItem secondDraft.items[0] ++ ((10 : Byte) :: (j' ++ ((10 : Byte) :: [])))) ++
        (secondDraft.closing (fileHeader.length + (firstDraft.show fileHeader.length none).length) (some (fileHeader.length + (showBody firstDraft.items).length)) ++ []))))

theorem spoiled_two (j j' : Bytes) (hj : j.length = (showItem firstDraft.items[3]).length) (hj' : j'.length = (showItem secondDraft.items[1]).length) :
    Spoiled (fun n _ => n == 5) ([firstDraft] ++ [secondDraft]) (spoiledFile j j') := by
  refine ⟨_, rfl, .cons _ _ _ _ _ _ (.kept _ _ _ (.kept _ _ _ (.kept _ _ _ (.spoiled _ _ j _ (Or.inr ?_) hj .nil))))
    (.cons _ _ _ _ _ _ (.kept _ _ _ (.spoiled _ _ j' _ (Or.inl rfl) hj' .nil)) (.nil _ _))⟩
  intro h
  revert h
  exact fun h => nomatch (h : some _ = none)

theorem spoiled_small (j j' : Bytes) (hj : j.length = (showItem firstDraft.items[3]).length) (hj' : j'.length = (showItem secondDraft.items[1]).length) :
    (spoiledFile j j').length < 10 ^ 10 := by
  obtain ⟨t, e, h⟩ := spoiled_two j j' hj hj'
  rw [e, List.length_append, spoiledDrafts_length h]
  decide +kernel

/-- The two pages are read all the same, whatever the bytes in place of the old page and the stream. -/
example (secure : Opened → Obj → Res Opened) (j j' : Bytes) (hj : j.length = (showItem firstDraft.items[3]).length) (hj' : j'.length = (showItem secondDraft.items[1]).length) :
    ∃ F, ∀ fuel, F ≤ fuel → ∃ doc, openDocument plain secure true fuel (spoiledFile j j') =
        .ok (doc, .dict (some b!"Catalog") [(b!"Type", .name b!"Catalog"), (b!"Pages", .ref 2 0)]) ∧
      ∃ F', ∀ fuel', F' ≤ fuel' → ∃ s', docPages (locate doc.env fuel) fuel' (.dict (some b!"Catalog") [(b!"Type", .name b!"Catalog"), (b!"Pages", .ref 2 0)]) doc.st =
        ([asPage [(b!"Type", .name b!"Page"), (b!"Parent", .ref 2 0), (b!"Rotate", .int (-90))],
          asPage [(b!"Type", .name b!"Page"), (b!"Parent", .ref 2 0), (b!"Contents", .ref 5 0), (b!"UserUnit", .real 25 (-1))]], none, s') :=
  C139_pages secure true [firstDraft] secondDraft drafts_ok (fun n _ => n == 5) _ (spoiled_two j j' hj hj') (spoiled_small j j' hj hj') (Or.inl rfl) (Or.inl rfl) 1 0 _ _ rfl rfl
    (.typed _ rfl (by decide)) 2 0 _ [_, _] rfl rfl rfl
    (.node 2 0 _ [(3, 0), (4, 0)] _ rfl rfl (.direct _ _ rfl) (.cons 3 0 _ [_] _ (.page 3 0 _ rfl rfl) (.cons 4 0 _ [_] _ (.page 4 0 _ rfl rfl) .nil)))

/-- … and every object but the stream. -/
example (j j' : Bytes) (hj : j.length = (showItem firstDraft.items[3]).length) (hj' : j'.length = (showItem secondDraft.items[1]).length) :
    ∃ F, ∀ fuel, F ≤ fuel → ∃ o, openDoc plain true fuel (spoiledFile j j') = .ok o ∧
      (locate o.env fuel 3 0 (asked o.env fuel [(4, 0), (1, 0)] o.st)).1 = .ok (.dict [(b!"Type", .name b!"Page"), (b!"Parent", .ref 2 0), (b!"Rotate", .int (-90))]) := by
  obtain ⟨F, h⟩ := C139_intact_partial (filtered := plain) true [firstDraft] secondDraft drafts_ok (fun n _ => n == 5) _ (spoiled_two j j' hj hj') (spoiled_small j j' hj hj') (Or.inl rfl)
  refine ⟨F, fun fuel hf => ?_⟩
  obtain ⟨o, h1, _, _, h4⟩ := h fuel hf
  exact ⟨o, h1, h4 [(4, 0), (1, 0)] (by decide) 3 0 _ rfl rfl⟩

end PdfReader
