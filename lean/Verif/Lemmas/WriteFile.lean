/-
  A written file is well-formed.
-/
import Verif.Lemmas.Write

namespace PdfReader
open Spec

/-! ### The table -/

/-- The subsections of a table. -/
def subsOf : Nat → List FileItem → List (Nat × List Ent)
  | _, [] => []
  | off, i :: is => (i.num, [⟨off, i.gen, true⟩]) :: subsOf (off + (showItem i).length + 1) is

theorem showBody_length : ∀ is : List FileItem, ∀ j, j :: is ≠ [] → (showBody (j :: is)).length = (showItem j).length + 1 + (showBody is).length := by
  intro is j _
  rw [showBody]
  simp
  omega

theorem digits_of_width {w : Nat} (hw : 0 < w) (n : Nat) : Digits (showDigits w n) :=
  ⟨fun h => by have := showDigits_length w n; rw [h] at this; simp at this; omega, showDigits_digit w n⟩

theorem subs_text : ∀ (is : List FileItem) (off : Nat), (∀ i ∈ is, i.gen < 10 ^ 5) → off + (showBody is).length < 10 ^ 10 →
    SubsText (subsOf off is) (showTable off is)
  | [], _, _, _ => by rw [subsOf, showTable]; exact .nil
  | i :: is, off, hg, hl => by
    rw [subsOf, showTable]
    rw [showBody_length is i (by simp)] at hl
    refine .cons _ _ _ _ _ ?_ (subs_text is _ (fun j hj => hg j (by simp [hj])) (by omega))
    unfold showEntry
    have he := EntText.mk (showDigits 10 off) (showDigits 5 i.gen) true [32, 10] (digits_of_width (by omega) _) (showDigits_length _ _)
      (digits_of_width (by omega) _) (showDigits_length _ _) (by simp)
    rw [showDigits_val 10 off (by omega), showDigits_val 5 i.gen (hg i (by simp))] at he
    have h1 : decVal [49] = 1 := rfl
    have := SubText.mk (showNat i.num) [49] [10] [⟨off, i.gen, true⟩] _ (showNat_digits _) ⟨by simp, by simp [Digit]⟩ (by simp [EolText]) h1
      (.cons _ _ _ _ he .nil) (by simp)
    rw [showNat_val] at this
    simpa using this

theorem numbered_subs : ∀ (is : List FileItem) (off : Nat), numbered (subsOf off is) =
    (subsOf off is).flatMap fun s => s.2.map fun e => (s.1, e)
  | [], _ => rfl
  | i :: is, off => by
    rw [subsOf]
    unfold numbered
    rw [List.flatMap_cons, List.flatMap_cons]
    have := numbered_subs is (off + (showItem i).length + 1)
    unfold numbered at this
    rw [this]
    rfl

theorem numbered_ents : ∀ (is : List FileItem) (off : Nat), numbered (subsOf off is) = entsOf off is
  | [], _ => rfl
  | i :: is, off => by
    rw [subsOf, entsOf]
    unfold numbered
    rw [List.flatMap_cons]
    have := numbered_ents is (off + (showItem i).length + 1)
    unfold numbered at this
    rw [this]
    rfl

theorem ents_mem : ∀ (is : List FileItem) (off : Nat) (e : Nat × Ent), e ∈ entsOf off is →
    ∃ i ∈ is, i.num = e.1 ∧ i.gen = e.2.gen
  | [], _, _, h => by cases h
  | i :: is, off, e, h => by
    rw [entsOf] at h
    rcases List.mem_cons.mp h with rfl | h
    · exact ⟨i, by simp, rfl, rfl⟩
    · obtain ⟨j, h1, h2⟩ := ents_mem is _ e h
      exact ⟨j, by simp [h1], h2⟩

theorem ents_at : ∀ (a : List FileItem) (i : FileItem) (b : List FileItem) (off : Nat), (i.num, ⟨off + (showBody a).length, i.gen, true⟩) ∈ entsOf off (a ++ i :: b)
  | [], i, b, off => by
    simp only [List.nil_append]
    rw [entsOf]
    simp [showBody]
  | j :: a, i, b, off => by
    simp only [List.cons_append]
    rw [entsOf, showBody_length a j (by simp)]
    have := ents_at a i b (off + (showItem j).length + 1)
    refine List.mem_cons_of_mem _ ?_
    rw [show off + ((showItem j).length + 1 + (showBody a).length) = off + (showItem j).length + 1 + (showBody a).length by omega]
    exact this

theorem ents_keys : ∀ (is : List FileItem) (off : Nat), (entsOf off is).map (·.1) = is.map (·.num)
  | [], _ => rfl
  | i :: is, off => by rw [entsOf, List.map_cons, List.map_cons, ents_keys is]

theorem ents_use : ∀ (is : List FileItem) (off : Nat), ∀ e ∈ entsOf off is, e.2.inUse = true
  | [], _, _, h => by cases h
  | i :: is, off, e, h => by
    rw [entsOf] at h
    rcases List.mem_cons.mp h with rfl | h
    · rfl
    · exact ents_use is _ e h

theorem keys_unique {α : Type} : ∀ {l : List (Nat × α)}, (l.map (·.1)).Nodup → ∀ a b, a ∈ l → b ∈ l → a.1 = b.1 → a = b
  | [], _, _, _, h, _, _ => by cases h
  | x :: l, hn, a, b, ha, hb, e => by
    rw [List.map_cons, List.nodup_cons] at hn
    rcases List.mem_cons.mp ha with h1 | h1
    · rcases List.mem_cons.mp hb with h2 | h2
      · rw [h1, h2]
      · exact (hn.1 (List.mem_map.mpr ⟨b, h2, by rw [← e, h1]⟩)).elim
    · rcases List.mem_cons.mp hb with h2 | h2
      · exact (hn.1 (List.mem_map.mpr ⟨a, h1, by rw [e, h2]⟩)).elim
      · exact keys_unique hn.2 a b h1 h2 e

/-- What a revision must satisfy for its table to be right; object streams are allowed. -/
structure Draft.Shape (d : Draft) : Prop where
  nonempty : d.items ≠ []
  nums : (d.items.map (·.num)).Nodup
  gens : ∀ i ∈ d.items, i.gen < 10 ^ 5
  keys : (d.trailer.map (·.1)).Nodup
  ents : WritableEnts d.trailer
  noPrev : b!"Prev" ∉ d.trailer.map (·.1)

theorem draft_shape {d : Draft} (h : d.Ok) : Draft.Shape d := ⟨h.nonempty, h.nums, h.gens, h.keys, h.ents, h.noPrev⟩

/-- What a written table says. -/
def revOf (d : Draft) (start : Nat) (prev : Option Nat) : Revision :=
  { inUse := lastEnt (entsOf start d.items) true, dict := d.dict prev, own := none }

theorem inUse_at_shape {d : Draft} (hd : Draft.Shape d) {a : List FileItem} {i : FileItem} {b : List FileItem} (e : d.items = a ++ i :: b) (start : Nat) (prev : Option Nat) :
    (revOf d start prev).inUse i.num = some (start + (showBody a).length, i.gen) := by
  have hm := ents_at a i b start
  rw [← e] at hm
  show lastEnt (entsOf start d.items) true i.num = _
  unfold lastEnt
  cases hf : (entsOf start d.items).reverse.find? (fun e => e.1 == i.num && e.2.inUse == true) with
  | none =>
    have := List.find?_eq_none.mp hf _ (List.mem_reverse.mpr hm)
    simp at this
  | some x =>
    have h1 := List.mem_reverse.mp (List.mem_of_find?_eq_some hf)
    have h2 := List.find?_some hf
    simp at h2
    have := keys_unique (l := entsOf start d.items) (by rw [ents_keys]; exact hd.nums) x _ h1 hm h2.1
    rw [this]
    rfl

theorem inUse_at {d : Draft} (hd : d.Ok) {a : List FileItem} {i : FileItem} {b : List FileItem} (e : d.items = a ++ i :: b) (start : Nat) (prev : Option Nat) :
    (revOf d start prev).inUse i.num = some (start + (showBody a).length, i.gen) :=
  inUse_at_shape (draft_shape hd) e start prev

theorem inUse_from {d : Draft} {start : Nat} {prev : Option Nat} {n g off : Nat} (h : (revOf d start prev).inUse n = some (off, g)) :
    ∃ i ∈ d.items, i.num = n ∧ i.gen = g := by
  change lastEnt (entsOf start d.items) true n = _ at h
  unfold lastEnt at h
  cases hf : (entsOf start d.items).reverse.find? (fun e => e.1 == n && e.2.inUse == true) with
  | none => rw [hf] at h; cases h
  | some x =>
    rw [hf] at h
    cases h
    have h1 := List.mem_reverse.mp (List.mem_of_find?_eq_some hf)
    have h2 := List.find?_some hf
    simp at h2
    obtain ⟨i, hi, e1, e2⟩ := ents_mem _ _ _ h1
    exact ⟨i, hi, e1.trans h2.1, e2⟩

theorem table_at_shape {d : Draft} (hd : Draft.Shape d) {file P Q : Bytes} {start : Nat} {prev : Option Nat} (hf : file = P ++ (d.show start prev ++ Q))
    (hP : P.length = start) (hs : file.length < 10 ^ 10) :
    TableAt file (start + (showBody d.items).length) (revOf d start prev) := by
  have hents : Den true (.ents (d.dict prev)) (showEnts (d.dict prev)) := by
    refine den_ents _ ?_
    cases prev with
    | none => exact hd.ents
    | some p =>
      show WritableEnts (d.trailer ++ _)
      have : ∀ es : List (Bytes × Obj), WritableEnts es → WritableEnts (es ++ [(b!"Prev", .int p)]) := by
        intro es
        induction es with
        | nil => intro _; rw [List.nil_append]; exact ⟨by unfold Writable; trivial, by unfold WritableEnts; trivial⟩
        | cons e es ih =>
          intro h
          obtain ⟨k, v⟩ := e
          rw [List.cons_append]
          rw [WritableEnts] at h ⊢
          exact ⟨h.1, ih h.2⟩
      exact this _ hd.ents
  have hkeys : ((d.dict prev).map (·.1)).Nodup := by
    cases prev with
    | none => exact hd.keys
    | some p =>
      show ((d.trailer ++ _).map (·.1)).Nodup
      rw [List.map_append, List.nodup_append]
      refine ⟨hd.keys, by simp, ?_⟩
      intro a ha b hb
      simp at hb
      subst hb
      intro e
      subst e
      exact hd.noPrev ha
  have hlen : start + (showBody d.items).length < 10 ^ 10 := by
    rw [hf] at hs
    unfold Draft.show at hs
    simp only [List.length_append] at hs
    omega
  refine ⟨[10], subsOf start d.items, showTable start d.items, [], [10], d.dict prev, showEnts (d.dict prev), 10 ::
    (b!"startxref" ++ ([10] ++ (showNat (start + (showBody d.items).length) ++ ([10] ++ (b!"%%EOF" ++ ([10] ++ Q)))))), ?_, sep_lf, subs_text _ _ hd.gens hlen, ?_, ?_, .nil, sep_lf, hents,
    (dictOf_self hkeys).symm, rfl, ?_⟩
  · rw [hf, ← hP]
    rw [List.drop_append, List.drop_of_length_le (by omega), List.nil_append]
    rw [show P.length + (showBody d.items).length - P.length = (showBody d.items).length by omega]
    unfold Draft.show
    simp
  · have := hd.nonempty
    cases h : d.items with
    | nil => exact absurd h this
    | cons i is => rw [subsOf]; simp
  · rintro ⟨a, n, h⟩
    have : ∀ (is : List FileItem) (off : Nat), ∀ s ∈ subsOf off is, s.2 ≠ [] := by
      intro is
      induction is with
      | nil => intro off s h; cases h
      | cons i is ih =>
        intro off s h
        rw [subsOf] at h
        rcases List.mem_cons.mp h with rfl | h
        · simp
        · exact ih _ s h
    exact absurd rfl (this d.items start (n, []) (by rw [h]; simp))
  · intro n
    rw [numbered_ents]
    rfl

theorem table_at {d : Draft} (hd : d.Ok) {file P Q : Bytes} {start : Nat} {prev : Option Nat} (hf : file = P ++ (d.show start prev ++ Q))
    (hP : P.length = start) (hs : file.length < 10 ^ 10) :
    TableAt file (start + (showBody d.items).length) (revOf d start prev) :=
  table_at_shape (draft_shape hd) hf hP hs

/-! ### Revisions -/

/-- The revisions, newest first. -/
def revsOf : Nat → Option Nat → List Draft → List Revision
  | _, _, [] => []
  | start, prev, d :: ds =>
    revsOf (start + (d.show start prev).length) (some (start + (showBody d.items).length)) ds ++ [revOf d start prev]

/-- The offset of the newest table. -/
def lastOff : Nat → Option Nat → List Draft → Nat
  | start, _, [] => start
  | start, _, [d] => start + (showBody d.items).length
  | start, prev, d :: d' :: ds => lastOff (start + (d.show start prev).length) (some (start + (showBody d.items).length)) (d' :: ds)

theorem dict_noPrev_shape {d : Draft} (hd : Draft.Shape d) : dictGet (d.dict none) b!"Prev" = none := by
  have : ∀ es : List (Bytes × Obj), b!"Prev" ∉ es.map (·.1) → dictGet es b!"Prev" = none := by
    intro es
    induction es with
    | nil => intro _; rfl
    | cons e es ih =>
      intro h
      obtain ⟨k, v⟩ := e
      rw [List.map_cons, List.mem_cons] at h
      rw [dictGet, if_neg (fun e => h (Or.inl e.symm)), ih fun h' => h (Or.inr h')]
  exact this _ hd.noPrev

theorem dict_noPrev {d : Draft} (hd : d.Ok) : dictGet (d.dict none) b!"Prev" = none :=
  dict_noPrev_shape (draft_shape hd)

theorem dict_prev_shape {d : Draft} (hd : Draft.Shape d) (p : Nat) : dictGet (d.dict (some p)) b!"Prev" = some (.int p) := by
  have : ∀ es : List (Bytes × Obj), b!"Prev" ∉ es.map (·.1) → dictGet (es ++ [(b!"Prev", .int p)]) b!"Prev" = some (.int p) := by
    intro es
    induction es with
    | nil => intro _; rfl
    | cons e es ih =>
      intro h
      obtain ⟨k, v⟩ := e
      rw [List.map_cons, List.mem_cons] at h
      rw [List.cons_append, dictGet, if_neg (fun e => h (Or.inl e.symm)), ih fun h' => h (Or.inr h')]
  exact this _ hd.noPrev

theorem dict_prev {d : Draft} (hd : d.Ok) (p : Nat) : dictGet (d.dict (some p)) b!"Prev" = some (.int p) :=
  dict_prev_shape (draft_shape hd) p

theorem updates_of {file : Bytes} (hs : file.length < 10 ^ 10) : ∀ (ds : List Draft) (start : Nat) (prev : Option Nat) (P Q : Bytes) (acc : List Revision), ds ≠ [] →
    (∀ d ∈ ds, d.Ok) → file = P ++ (showDrafts start prev ds ++ Q) → P.length = start → 0 < start →
    (acc = [] ∧ prev = none) ∨ (∃ p, prev = some p ∧ 0 < p ∧ Updates (TableAt file) p acc) →
    Updates (TableAt file) (lastOff start prev ds) (revsOf start prev ds ++ acc) := by
  intro ds
  induction ds with
  | nil => intro _ _ _ _ _ h; exact absurd rfl h
  | cons d ds ih =>
    intro start prev P Q acc _ hok hf hP hpos hacc
    have hd := hok d (by simp)
    rw [showDrafts] at hf
    have ht : TableAt file (start + (showBody d.items).length) (revOf d start prev) :=
      table_at hd (P := P) (Q := showDrafts (start + (d.show start prev).length) (some (start + (showBody d.items).length)) ds ++ Q) (by rw [hf]; simp) hP hs
    have hu : Updates (TableAt file) (start + (showBody d.items).length) (revOf d start prev :: acc) := by
      rcases hacc with ⟨rfl, rfl⟩ | ⟨p, rfl, hp, hu⟩
      · exact .oldest _ _ ht (dict_noPrev hd)
      · exact .newer _ p _ _ ht (dict_prev hd p) hp hu
    rw [revsOf, List.append_assoc]
    cases ds with
    | nil => rw [revsOf, List.nil_append, lastOff]; exact hu
    | cons d' ds =>
      rw [lastOff]
      refine ih _ _ (P ++ d.show start prev) Q (revOf d start prev :: acc) (by simp) (fun x hx => hok x (by simp [List.mem_cons.mp hx])) ?_ ?_ (by omega)
        (Or.inr ⟨_, rfl, by omega, hu⟩)
      · rw [hf]; simp
      · simp [hP]

theorem drafts_end : ∀ (ds : List Draft) (start : Nat) (prev : Option Nat), ds ≠ [] → ∃ body, body ≠ [] ∧
    showDrafts start prev ds = body ++ (b!"startxref" ++ ([10] ++ (showNat (lastOff start prev ds) ++ ([10] ++ (b!"%%EOF" ++ [10]))))) := by
  intro ds
  induction ds with
  | nil => intro _ _ h; exact absurd rfl h
  | cons d ds ih =>
    intro start prev _
    cases ds with
    | nil =>
      rw [showDrafts, showDrafts, lastOff]
      refine ⟨showBody d.items ++ (b!"xref" ++ ([10] ++ (showTable start d.items ++ ([] ++ (b!"trailer" ++ ([10] ++ (60 :: 60 :: (showEnts (d.dict prev) ++ 62 :: 62 :: [10])))))))), by simp, ?_⟩
      unfold Draft.show
      simp
    | cons d' ds =>
      obtain ⟨body, _, e⟩ := ih (start + (d.show start prev).length) (some (start + (showBody d.items).length)) (by simp)
      rw [showDrafts, lastOff, e]
      refine ⟨d.show start prev ++ body, ?_, by simp⟩
      unfold Draft.show
      simp

theorem not_later {pat c : Byte} {t : Bytes} {body file : Bytes} {k : Nat} {rest : Bytes} (hf : file = body ++ (c :: t)) (ht : pat ∉ t)
    (h : file.drop k = pat :: rest) : k ≤ body.length := by
  by_cases hk : k ≤ body.length
  · exact hk
  · exfalso
    obtain ⟨m, rfl⟩ : ∃ m, k = body.length + (m + 1) := ⟨k - body.length - 1, by omega⟩
    rw [hf, ← List.drop_drop, List.drop_left, List.drop_succ_cons] at h
    exact ht (List.mem_of_mem_drop (by rw [h]; simp))

theorem occurs_drop {pat s : Bytes} {k : Nat} (h : OccursAt pat s k) : ∃ rest, s.drop k = pat ++ rest := by
  obtain ⟨a, b, rfl, rfl⟩ := h
  exact ⟨b, by rw [List.drop_left]⟩

theorem starts_of {file body : Bytes} {off : Nat} (hf : file = body ++ (b!"startxref" ++ ([10] ++ (showNat off ++ ([10] ++ (b!"%%EOF" ++ [10])))))) (hne : body ≠ []) :
    StartsAt file off := by
  have hdig := (showNat_digits off).2
  have hd115 : (115 : Byte) ∉ showNat off := fun h => by have := hdig _ h; rw [digit_iff] at this; revert this; decide
  refine ⟨body, [10], showNat off, [10], [10], hf, hne, sep_lf, showNat_digits off, showNat_val off, ?_, by simp, ?_, ?_⟩
  · exact notStart_mk (by simp [Digit])
  · intro k hk
    obtain ⟨rest, hr⟩ := occurs_drop hk
    have hf2 : file = (body ++ (b!"startxref" ++ ([10] ++ (showNat off ++ [10])))) ++ (b!"%%EOF" ++ [10]) := by rw [hf]; simp
    by_cases hk : k ≤ (body ++ (b!"startxref" ++ ([10] ++ (showNat off ++ [10])))).length
    · exact hk
    · exfalso
      obtain ⟨m, e⟩ : ∃ m, k = (body ++ (b!"startxref" ++ ([10] ++ (showNat off ++ [10])))).length + (m + 1) := ⟨k - (body ++ (b!"startxref" ++ ([10] ++ (showNat off ++ [10])))).length - 1, by omega⟩
      rw [hf2, e, ← List.drop_drop, List.drop_left] at hr
      rcases m with _ | _ | _ | _ | _ | _ | m <;> simp at hr
  · intro k hk _
    obtain ⟨rest, hr⟩ := occurs_drop hk
    refine not_later (pat := 115) (c := 115) (t := b!"tartxref" ++ ([10] ++ (showNat off ++ ([10] ++ (b!"%%EOF" ++ [10]))))) (rest := b!"tartxref" ++ rest) hf ?_ hr
    simp [hd115]

theorem starts_at (ds : List Draft) (h : ds ≠ []) : StartsAt (writeFile ds) (lastOff fileHeader.length none ds) := by
  obtain ⟨body, hne, e⟩ := drafts_end ds fileHeader.length none h
  refine starts_of (body := fileHeader ++ body) ?_ (by simp [fileHeader])
  unfold writeFile
  rw [e]
  simp

theorem header_at (ds : List Draft) (h : ds ≠ []) : HeaderAt (writeFile ds) b!"1.7" 0 := by
  refine ⟨[], b!"%PDF-1.7", [10] ++ showDrafts fileHeader.length none ds, rfl, rfl, ?_, Or.inl rfl, fun a h' b v' _ _ => Nat.zero_le _, by simp, ?_⟩
  · exact .pdf b!"1.7" ⟨49, 55, by simp [Digit], by simp [Digit], rfl⟩
  · obtain ⟨body, _, e⟩ := drafts_end ds fileHeader.length none h
    unfold writeFile
    rw [e]
    simp [fileHeader]
    omega

/-! ### Contents -/

theorem body_at (a : List FileItem) (i : FileItem) (b : List FileItem) : ∃ rest, showBody (a ++ i :: b) = showBody a ++ (showItem i ++ rest) := by
  induction a with
  | nil => rw [List.nil_append, showBody, showBody]; exact ⟨_, rfl⟩
  | cons j a ih =>
    obtain ⟨rest, e⟩ := ih
    rw [List.cons_append, showBody, showBody, e]
    exact ⟨rest, by simp⟩

/-- The value which a revision gives to an object. -/
def valueIn (d : Draft) (n g : Nat) : Option Obj := (d.items.find? fun i => i.num == n && i.gen == g).map (·.val)

theorem contentOf_cons (d : Draft) (ds : List Draft) (n g : Nat) :
    contentOf (d :: ds) n g = match contentOf ds n g with | some o => some o | none => valueIn d n g := by
  unfold contentOf
  rw [List.reverse_cons, List.findSome?_append]
  cases h : ds.reverse.findSome? fun d => (d.items.find? fun i => i.num == n && i.gen == g).map (·.val) with
  | some o => simp
  | none => simp [valueIn]

theorem find_some {d : Draft} {n g : Nat} {o : Obj} (h : valueIn d n g = some o) : ∃ a i b, d.items = a ++ i :: b ∧ i.num = n ∧ i.gen = g ∧ i.val = o := by
  unfold valueIn at h
  cases hf : d.items.find? fun i => i.num == n && i.gen == g with
  | none => rw [hf] at h; cases h
  | some i =>
    rw [hf] at h
    cases h
    obtain ⟨a, b, e⟩ := List.append_of_mem (List.mem_of_find?_eq_some hf)
    have h2 := List.find?_some hf
    simp at h2
    exact ⟨a, i, b, e, h2.1, h2.2, rfl⟩

theorem find_none {d : Draft} {n g : Nat} (h : valueIn d n g = none) (start : Nat) (prev : Option Nat) (off : Nat) : (revOf d start prev).inUse n ≠ some (off, g) := by
  intro hu
  obtain ⟨i, hi, h1, h2⟩ := inUse_from hu
  unfold valueIn at h
  rw [Option.map_eq_none_iff, List.find?_eq_none] at h
  have := h i hi
  simp [h1, h2] at this

theorem content_none : ∀ (ds : List Draft) (start : Nat) (prev : Option Nat) (n g : Nat), contentOf ds n g = none →
    ∀ q ∈ revsOf start prev ds, ∀ off, q.inUse n ≠ some (off, g) := by
  intro ds
  induction ds with
  | nil => intro _ _ _ _ _ q h; cases h
  | cons d ds ih =>
    intro start prev n g h q hq off
    rw [contentOf_cons] at h
    rw [revsOf, List.mem_append, List.mem_singleton] at hq
    cases hc : contentOf ds n g with
    | some o => rw [hc] at h; cases h
    | none =>
      rw [hc] at h
      rcases hq with hq | rfl
      · exact ih _ _ n g hc q hq off
      · exact find_none h _ _ _

theorem content_at {file : Bytes} : ∀ (ds : List Draft) (start : Nat) (prev : Option Nat) (P Q : Bytes) (n g : Nat) (o : Obj),
    (∀ d ∈ ds, d.Ok) → file = P ++ (showDrafts start prev ds ++ Q) → P.length = start → contentOf ds n g = some o →
    ∃ off rest d i, CurrentAt (revsOf start prev ds) n g off ∧ file.drop off = showItem i ++ rest ∧ d ∈ ds ∧ i ∈ d.items ∧ i.num = n ∧ i.gen = g ∧ i.val = o := by
  intro ds
  induction ds with
  | nil => intro _ _ _ _ _ _ _ _ _ _ h; cases h
  | cons d ds ih =>
    intro start prev P Q n g o hok hf hP h
    rw [contentOf_cons] at h
    rw [showDrafts] at hf
    cases hc : contentOf ds n g with
    | some o' =>
      rw [hc] at h
      cases h
      obtain ⟨off, rest, d', i, ⟨newer, r, older, c1, c2, c3⟩, h2, h3, h4⟩ := ih (start + (d.show start prev).length) (some (start + (showBody d.items).length)) (P ++ d.show start prev) Q n g o
        (fun x hx => hok x (by simp [hx])) (by rw [hf]; simp) (by simp [hP]) hc
      refine ⟨off, rest, d', i, ⟨newer, r, older ++ [revOf d start prev], ?_, c2, c3⟩, h2, by simp [h3], h4⟩
      rw [revsOf, c1]
      simp
    | none =>
      rw [hc] at h
      dsimp only at h
      obtain ⟨a, i, b, e, h1, h2, h3⟩ := find_some h
      obtain ⟨rest, hb⟩ := body_at a i b
      have hu := inUse_at (hok d (by simp)) e start prev
      rw [h1, h2] at hu
      have hd : ∃ rest', file.drop (start + (showBody a).length) = showItem i ++ rest' := by
        rw [hf, ← hP, ← List.drop_drop, List.drop_left]
        unfold Draft.show
        rw [e, hb]
        simp only [List.append_assoc]
        rw [List.drop_left]
        exact ⟨_, rfl⟩
      obtain ⟨rest', hd⟩ := hd
      refine ⟨_, rest', d, i, ⟨revsOf (start + (d.show start prev).length) (some (start + (showBody d.items).length)) ds, revOf d start prev, [], ?_, content_none ds _ _ n g hc, hu⟩, hd, by simp, by rw [e]; simp, h1, h2, h3⟩
      rw [revsOf]

theorem own_none : ∀ (ds : List Draft) (start : Nat) (prev : Option Nat), ∀ r ∈ revsOf start prev ds, r.own = none := by
  intro ds
  induction ds with
  | nil => intro _ _ r h; cases h
  | cons d ds ih =>
    intro start prev r h
    rw [revsOf, List.mem_append, List.mem_singleton] at h
    rcases h with h | rfl
    · exact ih _ _ r h
    · rfl

theorem item_noPack {d : Draft} (hd : d.Ok) {i : FileItem} (hi : i ∈ d.items) : NoPack i.val := by
  intro e data v he hv
  have hmem : ∀ es : List (Bytes × Obj), dictGet es b!"Type" = some v → (b!"Type", v) ∈ es := by
    intro es
    induction es with
    | nil => intro h; cases h
    | cons x es ih =>
      intro h
      obtain ⟨k, w⟩ := x
      rw [dictGet] at h
      split at h
      · rename_i hk
        cases h
        rw [← hk]
        simp
      · exact List.mem_cons_of_mem _ (ih h)
  exact hd.plain i hi e data he v (hmem e hv)

theorem holds_of {decoded : List (Bytes × Obj) → Bytes → Bytes → Prop} (ds : List Draft) (hok : ∀ d ∈ ds, d.Ok) :
    Holds decoded AsIs (writeFile ds) 0 (revsOf fileHeader.length none ds) (contentOf ds) := by
  have hat : ∀ n g o, contentOf ds n g = some o → ∃ off rest d i, CurrentAt (revsOf fileHeader.length none ds) n g off ∧ (writeFile ds).drop off = showItem i ++ rest ∧
      d ∈ ds ∧ i ∈ d.items ∧ i.num = n ∧ i.gen = g ∧ i.val = o :=
    fun n g o h => content_at ds fileHeader.length none fileHeader [] n g o hok (by unfold writeFile; simp) rfl h
  refine ⟨⟨[], [], writeFile ds, rfl, .nil, fun n g o h => Or.inl ?_⟩, ⟨ds.flatMap fun d => d.items.map fun i => (i.num, i.gen), fun n g h => ?_⟩, ?_, ?_⟩
  · obtain ⟨off, rest, d, i, h1, h2, h3, h4, rfl, rfl, rfl⟩ := hat n g o h
    exact ⟨off, showItem i, rest, _, _, h1, h2, Or.inl (item_text i ((hok d h3).vals i h4)), rfl, .plain _ (item_noPack (hok d h3) h4)⟩
  · cases hc : contentOf ds n g with
    | none => exact absurd hc h
    | some o =>
      obtain ⟨off, rest, d, i, h1, h2, h3, h4, rfl, rfl, rfl⟩ := hat n g o hc
      exact List.mem_flatMap.mpr ⟨d, h3, List.mem_map.mpr ⟨i, h4, rfl⟩⟩
  · intro n g o defs h hd d hm
    obtain ⟨off, rest, dr, i, h1, h2, h3, h4, _, _, hv⟩ := hat n g o h
    have hnp : NoPack o := hv ▸ item_noPack (hok dr h3) h4
    cases hd with
    | plain =>
      simp at hm
      subst hm
      exact h
    | pack first e raw dir rest ms os htype => exact absurd (hnp e raw _ rfl htype) (by simp)
  · intro r hr n g v o ho
    rw [own_none ds _ _ r hr] at ho
    cases ho

theorem revs_cons : ∀ (ds : List Draft) (d : Draft) (start : Nat) (prev : Option Nat), ∃ r rs, revsOf start prev (ds ++ [d]) = r :: rs ∧ ∃ prev', r.dict = d.dict prev' := by
  intro ds
  induction ds with
  | nil => intro d start prev; exact ⟨_, [], rfl, prev, rfl⟩
  | cons d' ds ih =>
    intro d start prev
    obtain ⟨r, rs, e, h⟩ := ih d (start + (d'.show start prev).length) (some (start + (showBody d'.items).length))
    rw [List.cons_append, revsOf, e]
    exact ⟨r, rs ++ [revOf d' start prev], rfl, h⟩

theorem sections_of (ds : List Draft) (h : ds ≠ []) (hok : ∀ d ∈ ds, d.Ok) (hs : (writeFile ds).length < 10 ^ 10)
    (decoded : List (Bytes × Obj) → Bytes → Bytes → Prop) :
    SectionsFrom decoded (writeFile ds) (lastOff fileHeader.length none ds) (revsOf fileHeader.length none ds) := by
  have := updates_of hs ds fileHeader.length none fileHeader [] [] h hok (by unfold writeFile; simp) rfl (by simp [fileHeader]) (Or.inl ⟨rfl, rfl⟩)
  rw [List.append_nil] at this
  exact Or.inl this

end PdfReader
