/-
  C111: the data of inline images in the text of a canvas.
-/
import Verif.Spec.InlineText
import Verif.Lemmas.Told
import Verif.Props.Filters
import Verif.Props.Content

namespace PdfReader

open Spec

theorem letter_word {d : Nat} (h : d < 85) : b85Alphabet.getD d 0 = relettered (UInt8.ofNat (33 + d)) := by
  have key : ∀ d : Fin 85, b85Alphabet.getD d.val 0 = relettered (UInt8.ofNat (33 + d.val)) := by decide +kernel
  exact key ⟨d, h⟩

theorem word_letters {w : Nat} (h : w < 256 ^ 4) : b85Word w = (digits85 w).map relettered := by
  unfold b85Word digits85
  simp only [List.map_cons, List.map_nil]
  rw [letter_word (show w / 52200625 < 85 by omega), letter_word (Nat.mod_lt _ (by decide)), letter_word (Nat.mod_lt _ (by decide)), letter_word (Nat.mod_lt _ (by decide)),
    letter_word (Nat.mod_lt _ (by decide))]
  rw [show w / 85 ^ 4 % 85 = w / 52200625 by rw [show (85 : Nat) ^ 4 = 52200625 from rfl]; exact Nat.mod_eq_of_lt (by omega)]

theorem digits_range (v : Nat) : ∀ c ∈ digits85 v, 33 ≤ c.toNat ∧ c.toNat ≤ 117 := by
  intro c hc
  unfold digits85 at hc
  obtain ⟨d, hd, rfl⟩ := List.mem_map.mp hc
  have : d < 85 := by
    simp only [List.mem_cons, List.not_mem_nil, or_false] at hd
    rcases hd with rfl | rfl | rfl | rfl | rfl <;> exact Nat.mod_lt _ (by decide)
  rw [UInt8.toNat_ofNat']
  omega

theorem be4 (a b c e : Byte) : Spec.beVal [a, b, c, e] = a.toNat * 16777216 + b.toNat * 65536 + c.toNat * 256 + e.toNat := by
  show 256 * (256 * (256 * (256 * 0 + a.toNat) + b.toNat) + c.toNat) + e.toNat = _
  omega

theorem b85_text : ∀ data : Bytes, ∃ t, A85Enc data t ∧ (∀ c ∈ t, 33 ≤ c.toNat ∧ c.toNat ≤ 117) ∧ b85encode data = t.map relettered
  | [] => ⟨[], .nil, by simp, rfl⟩
  | [a] => by
    refine ⟨_, .last [a] (by simp) (by simp), fun c hc => digits_range _ c (List.mem_of_mem_take hc), ?_⟩
    rw [b85encode]
    have := a.toNat_lt
    rw [word_letters (by omega), ← List.map_take]
    show _ = ((digits85 (Spec.beVal [a, 0, 0, 0])).take 2).map relettered
    rw [be4, show (0 : Byte).toNat = 0 from rfl]
    simp only [Nat.zero_mul, Nat.add_zero]
  | [a, b] => by
    refine ⟨_, .last [a, b] (by simp) (by simp), fun c hc => digits_range _ c (List.mem_of_mem_take hc), ?_⟩
    rw [b85encode]
    have := a.toNat_lt
    have := b.toNat_lt
    rw [word_letters (by omega), ← List.map_take]
    show _ = ((digits85 (Spec.beVal [a, b, 0, 0])).take 3).map relettered
    rw [be4, show (0 : Byte).toNat = 0 from rfl]
    simp only [Nat.zero_mul, Nat.add_zero]
  | [a, b, c] => by
    refine ⟨_, .last [a, b, c] (by simp) (by simp), fun c hc => digits_range _ c (List.mem_of_mem_take hc), ?_⟩
    rw [b85encode]
    have := a.toNat_lt
    have := b.toNat_lt
    have := c.toNat_lt
    rw [word_letters (by omega), ← List.map_take]
    show _ = ((digits85 (Spec.beVal [a, b, c, 0])).take 4).map relettered
    rw [be4, show (0 : Byte).toNat = 0 from rfl]
    simp only [Nat.zero_mul, Nat.add_zero]
  | a :: b :: c :: e :: r => by
    obtain ⟨t, h1, h2, h3⟩ := b85_text r
    refine ⟨_, .group a b c e r t h1, fun x hx => ?_, ?_⟩
    · rcases List.mem_append.mp hx with hx | hx
      · exact digits_range _ x hx
      · exact h2 x hx
    · rw [b85encode]
      have := a.toNat_lt
      have := b.toNat_lt
      have := c.toNat_lt
      have := e.toNat_lt
      rw [word_letters (by omega), h3, List.map_append, be4]

/-! ### The text only grows -/

/-- Computations which only add to the text of the canvas, when they succeed. -/
def Lengthens {α : Type} (m : DM Paint α) : Prop := ∀ p a p', m p = (.ok a, p') → ∃ t, p'.canvas.text = p.canvas.text ++ t

theorem quiet_lengthens {α : Type} {m : DM Paint α} (h : Quiet m) : Lengthens m := fun p a p' e => ⟨[], by rw [h p a p' e, List.append_nil]⟩

theorem lengthens_bind {α β : Type} {m : DM Paint α} {f : α → DM Paint β} (h1 : Lengthens m) (h2 : ∀ a, Lengthens (f a)) : Lengthens (m.bind f) := by
  intro p b p' h
  obtain ⟨a, s1, e1, e2⟩ := DM.bind_ok h
  obtain ⟨t, ht⟩ := h1 _ _ _ e1
  obtain ⟨u, hu⟩ := h2 a _ _ _ e2
  exact ⟨t ++ u, by rw [hu, ht, List.append_assoc]⟩

theorem lengthens_add (r : Res Text) : Lengthens (addText r) := by
  intro p a p' h
  unfold addText at h
  cases r with
  | error e => cases h
  | ok t => cases h; exact ⟨t, rfl⟩

theorem quiet_restore : Quiet restoreState := by intro p a p' e; cases e; rfl

theorem lengthens_op (h : Host) (res : Resources) {name : Bytes} (hn : name ≠ b!"navigate") (args : List Obj) : Lengthens (notifyOp h res (onDoPage h res) resetPaint name args) := by
  have ha : aliasOf name ≠ b!"navigate" := by
    unfold aliasOf
    split
    · decide
    · split
      · decide
      · split
        · decide
        · exact hn
  unfold notifyOp
  refine lengthens_bind (quiet_lengthens (quiet_ite quiet_save (quiet_pure _))) fun _ => lengthens_bind (quiet_lengthens (quiet_onOperator h res _ (quiet_onDo h res) _ _)) fun shown =>
    lengthens_bind ?_ fun _ => lengthens_add _
  split
  · exact quiet_lengthens quiet_restore
  · first
      | rw [if_neg ha]
      | skip
    split
    · exact lengthens_add _
    · exact quiet_lengthens (quiet_pure _)

theorem lengthens_all (h : Host) (res : Resources) : ∀ cs : List Content, (∀ args, .op b!"navigate" args ∉ cs) → Lengthens (notifyAll h res (onDoPage h res) resetPaint cs)
  | [], _ => quiet_lengthens (quiet_pure _)
  | .op name args :: cs, hn => by
    refine lengthens_bind (lengthens_op h res ?_ args) fun _ => lengthens_all h res cs fun a ha => hn a (List.mem_cons_of_mem _ ha)
    intro e
    subst e
    exact hn args List.mem_cons_self
  | .image d data :: cs, hn => by
    refine lengthens_bind ?_ fun _ => lengthens_all h res cs fun a ha => hn a (List.mem_cons_of_mem _ ha)
    intro p a p' e
    have := lengthens_add (printObj (.image d data)) { p with canvas := { p.canvas with inline := p.canvas.inline ++ [.image d data] } } a p' e
    exact this

/-! ### The image -/

theorem filterForm_list {o : Option Obj} {fs : List Bytes} (h : FilterForm o fs) (hne : fs ≠ []) :
    ∃ x, o = some x ∧ truthy x = true ∧ filterList x = fs.map .name := by
  cases h with
  | absent => exact absurd rfl hne
  | null => exact absurd rfl hne
  | name n hn => exact ⟨_, rfl, by cases n with | nil => exact absurd rfl hn | cons _ _ => rfl, rfl⟩
  | array ns => exact ⟨_, rfl, by cases fs with | nil => exact absurd rfl hne | cons _ _ => rfl, rfl⟩

theorem filterForm_none {o : Option Obj} (h : FilterForm o []) : o = none ∨ ∃ x, o = some x ∧ truthy x = false := by
  generalize hfs : ([] : List Bytes) = fs at h
  cases h with
  | absent => exact Or.inl rfl
  | null => exact Or.inr ⟨_, rfl, rfl⟩
  | name n hn => cases hfs
  | array ns => subst hfs; exact Or.inr ⟨_, rfl, rfl⟩

/-- The first filter as the code sees it. -/
theorem imageFilters_list {d : List (Bytes × Obj)} {fs : List Bytes} (h : ImageFilters d fs) (hne : filterList (imageEntry d b!"Filter" b!"F") ≠ []) :
    ∃ f rest, filterList (imageEntry d b!"Filter" b!"F") = f :: rest ∧ (isAsciiFilter f = true ↔ ∃ n ns, fs = n :: ns ∧ n ∈ textFilters) := by
  have case_ne : ∀ x, truthy x = true → filterList x = fs.map .name → fs ≠ [] → ∃ f rest, filterList x = f :: rest ∧ (isAsciiFilter f = true ↔ ∃ n ns, fs = n :: ns ∧ n ∈ textFilters) := by
    intro x _ hl hfs
    cases fs with
    | nil => exact absurd rfl hfs
    | cons n ns =>
      refine ⟨_, _, hl, ?_⟩
      show decide (n ∈ textFilters) = true ↔ _
      rw [decide_eq_true_eq]
      exact ⟨fun hm => ⟨n, ns, rfl, hm⟩, fun ⟨n', ns', e, hm⟩ => by cases e; exact hm⟩
  rcases h with ⟨h, hfs⟩ | ⟨h1, h2⟩
  · obtain ⟨x, e, ht, hl⟩ := filterForm_list h hfs
    have : imageEntry d b!"Filter" b!"F" = x := by unfold imageEntry; rw [e]; dsimp only; rw [if_pos ht]
    rw [this]
    exact case_ne x ht hl hfs
  · have : imageEntry d b!"Filter" b!"F" = (dictGet d b!"F").getD .null := by
      unfold imageEntry
      rcases filterForm_none h1 with e | ⟨x, e, ht⟩
      · rw [e]
      · rw [e]; dsimp only; rw [if_neg (by rw [ht]; decide)]
    rw [this] at hne ⊢
    by_cases hfs : fs = []
    · subst hfs
      generalize dictGet d b!"F" = o at h2 hne ⊢
      have none : (∃ n ns, ([] : List Bytes) = n :: ns ∧ n ∈ textFilters) ↔ False := ⟨fun ⟨_, _, e, _⟩ => (by cases e), False.elim⟩
      generalize hfs : ([] : List Bytes) = fs at h2
      cases h2 with
      | absent => exact ⟨.null, [], rfl, by rw [none]; decide⟩
      | null => exact ⟨.null, [], rfl, by rw [none]; decide⟩
      | name n hn => cases hfs
      | array ns => subst hfs; exact absurd rfl hne
    · obtain ⟨x, e, ht, hl⟩ := filterForm_list h2 hfs
      rw [e]
      exact case_ne x ht hl hfs

theorem image_text {d : List (Bytes × Obj)} {data : Bytes} {t : Text} (h : printObj (.image d data) = .ok t) {fs : List Bytes} (hf : ImageFilters d fs) :
    ∃ u w, t = asc b!"\nBI\n" ++ u ++ asc b!"\nID\n" ++ w ++ asc b!"\nEI" ∧
      ((∃ n ns, fs = n :: ns ∧ n ∈ textFilters) → w = asc data) ∧
      ((¬ ∃ n ns, fs = n :: ns ∧ n ∈ textFilters) → ∃ a, A85Enc data a ∧ (∀ c ∈ a, 33 ≤ c.toNat ∧ c.toNat ≤ 117) ∧ w = asc (a.map relettered ++ b!"~>")) := by
  unfold printObj at h
  split at h
  · cases h
  · rename_i ts _
    unfold imageTail at h
    have hne : filterList (imageEntry d b!"Filter" b!"F") ≠ [] := by
      intro e
      rw [e] at h
      cases h
    obtain ⟨f, rest, e, hiff⟩ := imageFilters_list hf hne
    rw [e] at h
    dsimp only at h
    by_cases hall : ((if isAsciiFilter f = true then data else b85encode data ++ b!"~>").all fun c => decide (c.toNat < 128)) = true
    · rw [if_pos hall] at h
      cases h
      refine ⟨joinText [32] ts ++ asc b!" /Filter [" ++ _ ++ asc b!"]", _, by simp only [List.append_assoc]; rfl, fun ha => ?_, fun ha => ?_⟩
      · rw [if_pos (hiff.mpr ha)]
      · obtain ⟨a, h1, h2, h3⟩ := b85_text data
        exact ⟨a, h1, h2, by rw [if_neg (fun x => ha (hiff.mp x)), h3]⟩
    · rw [if_neg hall] at h
      cases h

/-- C111: when a page is rendered, its text has every inline image of its content (unless a command `navigate` comes after it): between BI, ID and EI,
with its data as they are if its first filter is for texts, and otherwise spelled in base 85 with the letters of RFC 1924 in place of those of ASCII85. -/
theorem C111_kept (h : Host) (res : Resources) (s : Bytes) (cs ds : List Content) (d : List (Bytes × Obj)) (data : Bytes) (p : Paint)
    (hc : contentObjects s = (cs ++ .image d data :: ds, none)) (hr : renderPage h res s {} = (.ok (), p)) (hn : ∀ args, .op b!"navigate" args ∉ ds)
    (fs : List Bytes) (hf : ImageFilters d fs) :
    ∃ before u w after, p.canvas.text = before ++ (asc b!"\nBI\n" ++ u ++ asc b!"\nID\n" ++ w ++ asc b!"\nEI") ++ after ∧
      ((∃ n ns, fs = n :: ns ∧ n ∈ textFilters) → w = asc data) ∧
      ((¬ ∃ n ns, fs = n :: ns ∧ n ∈ textFilters) → ∃ a, A85Enc data a ∧ (∀ c ∈ a, 33 ≤ c.toNat ∧ c.toNat ≤ 117) ∧ w = asc (a.map relettered ++ b!"~>")) := by
  unfold renderPage renderStream at hr
  rw [hc] at hr
  dsimp only at hr
  obtain ⟨_, p1, e1, e2⟩ := DM.bind_ok hr
  cases e2
  obtain ⟨p2, e3, e4⟩ := notifyAll_append _ _ _ _ _ _ _ _ _ e1
  obtain ⟨_, p3, e5, e6⟩ := DM.bind_ok (show ((notifyImage d data).bind fun _ => notifyAll h res (onDoPage h res) resetPaint ds) p2 = _ from e4)
  obtain ⟨after, ha⟩ := lengthens_all h res ds hn _ _ _ e6
  unfold notifyImage addText at e5
  split at e5
  · cases e5
  · rename_i t ht
    cases e5
    obtain ⟨u, w, hw, h1, h2⟩ := image_text ht hf
    exact ⟨p2.canvas.text, u, w, after, by rw [ha, ← hw], h1, h2⟩

theorem unletter_letter : ∀ c : Byte, 33 ≤ c.toNat ∧ c.toNat ≤ 117 → unlettered (relettered c) = c := forall_u8 _ (by decide +kernel)

theorem solid : ∀ c : Byte, 33 ≤ c.toNat ∧ c.toNat ≤ 117 → (!(([0, 9, 10, 12, 13, 32] : Bytes).contains c)) = true := forall_u8 _ (by decide +kernel)

/-- C111: the data can be got back from this spelling, by giving it the letters of ASCII85 and decoding that. -/
theorem C111_recovered (data a : Bytes) (h : A85Enc data a) (hr : ∀ c ∈ a, 33 ≤ c.toNat ∧ c.toNat ≤ 117) :
    ascii85Decode ((a.map relettered).map unlettered ++ b!"~>") = data := by
  have e : (a.map relettered).map unlettered = a := by
    rw [List.map_map]
    conv => rhs; rw [← List.map_id a]
    exact List.map_congr_left fun c hc => unletter_letter c (hr c hc)
  rw [e]
  refine C02_ascii85_decodes data a _ h ?_
  rw [List.filter_append, List.filter_eq_self.mpr ?_]
  · rfl
  · intro c hc
    exact solid c (hr c hc)

/-- An image without filters: its data `ab` are spelled `VPX`, with the letters of RFC 1924; `@:B` is the same with those of ASCII85. -/
def rawImage : Bytes := b!"q BI /W 2 ID ab EI Q"

/-- An image with an ASCII filter: its data stay. -/
def hexImage : Bytes := b!"BI /W 2 /F [/AHx /Fl] ID 61> EI"

/-- The host of these examples. -/
def noHost : Host where
  decode _ o := decodeDefault o
  items es := .ok (es.map fun e => (e.1, .atom e.2))
  data _ := .error .attributeError
  formResources _ := .ok []

example : contentObjects rawImage = ([.op b!"q" []] ++ .image [(b!"W", .int 2)] b!"ab" :: [.op b!"Q" []], none) := by decide +kernel

example : (renderPage noHost [] rawImage {}).1 = .ok () ∧ ImageFilters [(b!"W", .int 2)] [] := ⟨by decide +kernel, .inr ⟨.absent, .absent⟩⟩

example : (renderPage noHost [] rawImage {}).2.canvas.text = asc b!"\n q\nBI\n/W 2 /Filter [ /ASCII85Decode  /None ]\nID\nVPX~>\nEI\n Q" := by decide +kernel

example : (b!"@:B").map relettered = b!"VPX" ∧ ascii85Decode (b!"@:B~>") = b!"ab" := by decide +kernel

example : contentObjects hexImage = ([] ++ .image [(b!"W", .int 2), (b!"F", .arr [.name b!"AHx", .name b!"Fl"])] b!"61>" :: [], none) := by decide +kernel

example : (renderPage noHost [] hexImage {}).1 = .ok () ∧ ImageFilters [(b!"W", .int 2), (b!"F", .arr [.name b!"AHx", .name b!"Fl"])] [b!"AHx", b!"Fl"] :=
  ⟨by decide +kernel, .inr ⟨.absent, .array [b!"AHx", b!"Fl"]⟩⟩

end PdfReader
