/-
  Documents made of texts: their objects, and what their pages show.
-/
import Verif.Spec.TextFile
import Verif.Props.View

namespace PdfReader

open Spec

/-! ### The content of a page -/

/-- The commands of a page. -/
def textOps (lines : List Bytes) : List Content :=
  .op b!"BT" [] :: .op b!"Tf" [.name b!"F1", .int 12] :: (lines.map (fun l => .op b!"Tj" [.str l]) ++ [.op b!"ET" []])

theorem opText_of {t : Bytes} (h : t ∈ ([b!"BT", b!"Tf", b!"Tj", b!"ET"] : List Bytes)) : OpText t := by
  have : ∀ t ∈ ([b!"BT", b!"Tf", b!"Tj", b!"ET"] : List Bytes), t ≠ [] ∧ (∀ c ∈ t, isRegular c = true) ∧
    (t.head?.all (fun c => !(isDigit c) && c != 43 && c != 45 && c != 46)) = true ∧
    t ∉ ([b!"null", b!"true", b!"false", b!"BI"] : List Bytes) := by decide +kernel
  obtain ⟨h1, h2, h3, h4⟩ := this t h
  refine ⟨h1, fun c hc => (regular_iff c).mpr (h2 c hc), ?_, h4⟩
  rintro c t' rfl
  simp only [List.head?_cons, Option.all_some, Bool.and_eq_true, bne_iff_ne, ne_eq, Bool.not_eq_true'] at h3
  rintro (h | h | h | h)
  · rw [digit_iff, h3.1.1.1] at h; cases h
  · exact h3.1.1.2 h
  · exact h3.1.2 h
  · exact h3.2 h

theorem stop_space {x : Bytes} : Stop (32 :: x) := notStart_mk (fun h => h.1 (by simp [WS]))

theorem sep_blank : Sep [32] := .ws 32 [] (by simp [WS]) .nil

theorem lines_text : ∀ lines : List Bytes,
    ContentText [] (lines.map (fun l => .op b!"Tj" [.str l]) ++ [.op b!"ET" []]) (lines.flatMap (fun l => b!" (" ++ (showStr l ++ b!") Tj")) ++ b!" ET")
  | [] => .op [] [] [32] b!"ET" [] sep_blank (opText_of (by decide)) notStart_nil (.done _ _ .nil)
  | l :: lines => by
    have ih := lines_text lines
    rw [List.flatMap_cons, List.map_cons, List.cons_append]
    have hs : Stop (lines.flatMap (fun l => b!" (" ++ (showStr l ++ b!") Tj")) ++ b!" ET") := by
      cases lines with
      | nil => exact stop_space
      | cons l' lines =>
        rw [List.flatMap_cons]
        exact stop_space
    have hd : Den false (.obj (.str l)) (40 :: (showStr l ++ [41])) := .str _ _ (showStr_text l)
    have := ContentText.operand [] _ [32] _ _ [32] (b!"Tj" ++ (lines.flatMap (fun l => b!" (" ++ (showStr l ++ b!") Tj")) ++ b!" ET")) sep_blank hd sep_blank
      (notStart_mk (by rintro (h | h); · simp [WS] at h
                       · cases h))
      (fun h => by cases h) (by rintro ⟨d, h⟩; cases h) (.op _ _ [32] b!"Tj" _ sep_blank (opText_of (by decide)) hs ih)
    simpa using this

theorem text_content (lines : List Bytes) : ContentText [] (textOps lines) (textContent lines) := by
  have f1 : Den false (.obj (.name b!"F1")) b!"/F1" :=
    .name _ _ (.plain 70 _ _ ((regular_iff _).mpr rfl) (by decide) (.plain 49 _ _ ((regular_iff _).mpr rfl) (by decide) .nil))
  have i12 : Den false (.obj (.int 12)) b!"12" :=
    .int 12 _ (.mk false [] b!"12" (Or.inl ⟨rfl, Or.inl rfl⟩) ⟨by decide, by simp [Digit]⟩)
  have ns : ∀ {c : Byte} {x : Bytes}, isWs c = false → c ≠ 37 → NotStart SepChar (c :: x) := fun {c x} h1 h2 =>
    notStart_mk (by rintro (h | h); · rw [ws_iff, h1] at h; cases h
                    · exact h2 h)
  have hs : Stop (lines.flatMap (fun l => b!" (" ++ (showStr l ++ b!") Tj")) ++ b!" ET") := by
    cases lines with
    | nil => exact stop_space
    | cons l' lines =>
      rw [List.flatMap_cons]
      exact stop_space
  exact .op [] _ [] b!"BT" _ .nil (opText_of (by decide)) stop_space
    (.operand [] _ [32] _ b!"/F1" [32] (b!"12 Tf" ++ _) sep_blank f1 sep_blank (ns rfl (by decide)) (fun _ => stop_space) (by rintro ⟨d, h⟩; cases h)
    (.operand _ _ [32] _ b!"12" [32] (b!"Tf" ++ _) sep_blank i12 sep_blank (ns rfl (by decide)) (fun _ => stop_space) (by rintro ⟨d, h⟩; cases h)
    (.op _ _ [32] b!"Tf" _ sep_blank (opText_of (by decide)) hs (lines_text lines))))

/-! ### Numbers -/

theorem numbers_form : ∀ (pages : List (List Bytes)) (k n : Nat), n ∈ pageNumbers k pages → ∃ j, j < pages.length ∧ n = k + 2 * j
  | [], k, n, h => by cases h
  | p :: pages, k, n, h => by
    unfold pageNumbers at h
    rcases List.mem_cons.mp h with h | h
    · exact ⟨0, by simp, by omega⟩
    · obtain ⟨j, h1, h2⟩ := numbers_form pages (k + 2) n h
      exact ⟨j + 1, by simp; omega, by omega⟩

theorem numbers_nodup : ∀ (pages : List (List Bytes)) (k : Nat), (pageNumbers k pages).Nodup
  | [], k => by unfold pageNumbers; exact List.nodup_nil
  | p :: pages, k => by
    unfold pageNumbers
    refine List.nodup_cons.mpr ⟨fun h => ?_, numbers_nodup pages (k + 2)⟩
    obtain ⟨j, _, h⟩ := numbers_form pages _ _ h
    omega

section
variable {how : List (Bytes × Obj)} {encode : Bytes → Bytes}

theorem items_numbers : ∀ (pages : List (List Bytes)) (k : Nat), (contentItems how encode k pages).map (·.num) = (pageNumbers k pages).map (· + 1)
  | [], k => rfl
  | p :: pages, k => by
    unfold contentItems pageNumbers
    rw [List.map_cons, List.map_cons, items_numbers pages]

theorem items_gen : ∀ (pages : List (List Bytes)) (k : Nat), ∀ i ∈ contentItems how encode k pages, i.gen = 0
  | [], k, i, h => by cases h
  | p :: pages, k, i, h => by
    unfold contentItems at h
    rcases List.mem_cons.mp h with rfl | h
    · rfl
    · exact items_gen pages _ i h

theorem items_val : ∀ (pages : List (List Bytes)) (k : Nat), ∀ i ∈ contentItems how encode k pages,
    ∃ data : Bytes, i.val = .stream ((b!"Length", .int data.length) :: how) data
  | [], k, i, h => by cases h
  | p :: pages, k, i, h => by
    unfold contentItems at h
    rcases List.mem_cons.mp h with rfl | h
    · exact ⟨_, rfl⟩
    · exact items_val pages _ i h

theorem all_numbers_nodup (pages : List (List Bytes)) :
    ((textObjects pages).map (·.1) ++ (contentItems how encode 4 pages).map (·.num)).Nodup := by
  rw [items_numbers]
  unfold textObjects
  rw [List.map_append, List.map_map]
  have e : (fun x : Nat × Obj => x.1) ∘ (fun k => (k, Obj.dict (pageEntries k))) = id := rfl
  rw [e, List.map_id]
  refine List.nodup_append.mpr ⟨List.nodup_append.mpr ⟨(show [1, 2, 3].Nodup by decide), numbers_nodup pages 4, ?_⟩, ?_, ?_⟩
  · intro a ha b hb
    obtain ⟨j, _, h⟩ := numbers_form pages _ _ hb
    simp only [List.map_cons, List.map_nil, List.mem_cons, List.not_mem_nil, or_false] at ha
    omega
  · have := numbers_nodup pages 4
    exact List.Pairwise.map _ (fun a b h => by omega) this
  · intro a ha b hb
    obtain ⟨n, hn, rfl⟩ := List.mem_map.mp hb
    obtain ⟨j, _, h⟩ := numbers_form pages _ _ hn
    rcases List.mem_append.mp ha with ha | ha
    · simp only [List.map_cons, List.map_nil, List.mem_cons, List.not_mem_nil, or_false] at ha
      omega
    · obtain ⟨i, _, h'⟩ := numbers_form pages _ _ ha
      omega

/-! ### What the pages show -/

variable {store : Store} {filtered : List (Bytes × Obj) → Bytes → Res Bytes} {builtin : Builtin} {predefined : Bytes → Option CMap}

/-- The store has the objects of the document. -/
structure HasText (store : Store) (how : List (Bytes × Obj)) (encode : Bytes → Bytes) (pages : List (List Bytes)) : Prop where
  objects : ∀ m ∈ textObjects pages, store m.1 0 = some m.2
  contents : ∀ i ∈ contentItems how encode 4 pages, store i.num 0 = some i.val

theorem tree_kids : ∀ (pages : List (List Bytes)) (k : Nat), (∀ n ∈ pageNumbers k pages, store n 0 = some (.dict (pageEntries n))) →
    PageTrees store ((pageNumbers k pages).map fun n => (n, 0)) ((pageNumbers k pages).map pageEntries)
  | [], k, _ => .nil
  | p :: pages, k, h => by
    unfold pageNumbers at h ⊢
    exact .cons k 0 _ [_] _ (.page k 0 _ (h k List.mem_cons_self) rfl) (tree_kids pages (k + 2) fun n hn => h n (List.mem_cons_of_mem _ hn))

theorem text_tree {pages : List (List Bytes)} (h : HasText store how encode pages) : PageTree store 2 0 ((pageNumbers 4 pages).map pageEntries) := by
  refine .node 2 0 (treeEntries pages) ((pageNumbers 4 pages).map fun n => (n, 0)) _ ?_ rfl (.direct _ _ ?_) ?_
  · exact h.objects (2, .dict (treeEntries pages)) (by simp [textObjects])
  · rw [List.map_map]
    rfl
  · refine tree_kids pages 4 fun n hn => h.objects (n, .dict (pageEntries n)) ?_
    unfold textObjects
    exact List.mem_append_right _ (List.mem_map.mpr ⟨n, hn, rfl⟩)

/-- The resources of every page: none of its own, and the font of the root. -/
def textChain : List (List (Bytes × Category)) := [[], [(b!"Font", .named [(b!"F1", .dict (some b!"Font") fontEntries)])]]

theorem text_ancestry {pages : List (List Bytes)} (h : HasText store how encode pages) (k : Nat) : Ancestry store (pageEntries k) textChain := by
  have h2 := h.objects (2, .dict (treeEntries pages)) (by simp [textObjects])
  have h3 := h.objects (3, .dict fontEntries) (by simp [textObjects])
  refine .child _ [] (some b!"Pages") (treeEntries pages) _ (.absent (Or.inl rfl)) ⟨.ref 2 0, rfl, .ref 2 0 _ _ h2 (fun _ _ e => by cases e) (.dict _ _ (.typed _ rfl (by decide)))⟩
    (by simp [treeEntries]) ?_
  refine .top _ _ (.present none _ _ ⟨_, rfl, .dict _ _ (.untyped rfl)⟩ (.cons _ _ (.dict none [(b!"F1", .ref 3 0)]) _ _ _ (.dict _ _ (.untyped rfl)) (.named _ _ _ ?_ (by simp)) .nil) (by simp)) (Or.inl rfl)
  exact .cons _ _ _ _ _ (.ref 3 0 _ _ h3 (fun _ _ e => by cases e) (.dict _ _ (.typed _ rfl (by decide)))) .nil

/-- A decoder for the texts. -/
def textDec (f : Option Bytes) (o : Obj) : Option Text :=
  match f, o with
  | some n, .str s => if n = b!"F1" ∧ ∀ b ∈ s, b.toNat ≠ 0xA4 then some (charsOf winAnsiChar s) else none
  | _, _ => none

theorem textDec_is (hb : builtin b!"WinAnsiEncoding" = none) (hp : predefined b!"WinAnsiEncoding" = none) (f : Option Bytes) (o : Obj) (t : Text)
    (h : textDec f o = some t) : StringIs store filtered builtin predefined textChain f o t := by
  unfold textDec at h
  split at h
  · rename_i n s
    split at h
    · rename_i hc
      cases h
      obtain ⟨rfl, hs⟩ := hc
      refine .font _ (.dict (some b!"Font") fontEntries) ⟨none, some (.name b!"WinAnsiEncoding"), some b!"Helvetica"⟩ _ _ rfl
        (.mk _ _ _ (.absent (Or.inl rfl)) (.name _ ⟨_, rfl, .atom _ trivial⟩) (.name _ ⟨_, rfl, .atom _ trivial⟩)) ?_
      exact .winAnsi s rfl rfl hp hb (.str s) hs
    · cases h
  · cases h

theorem text_shows {doOk : Option Bytes → List Obj → Prop} {gsOk : List Obj → Prop} (lines : List Bytes) (hl : ∀ l ∈ lines, ∀ b ∈ l, b.toNat ≠ 0xA4) :
    Shows textDec doOk gsOk [none] (textOps lines) [some b!"F1"] (lines.map (charsOf winAnsiChar)) := by
  refine .other _ _ _ _ _ _ (by decide) (by decide) (fun h => by revert h; decide) (fun o h => by cases h) ?_
  refine .font _ _ _ _ _ _ _ (.int 12) ?_
  induction lines with
  | nil => exact .other _ _ _ _ _ _ (by decide) (by decide) (fun h => by revert h; decide) (fun o h => by cases h) (.nil _)
  | cons l lines ih =>
    refine .one _ _ _ _ _ _ _ _ (Or.inl rfl) ?_ (ih fun l' h => hl l' (List.mem_cons_of_mem _ h))
    unfold textDec
    exact if_pos ⟨rfl, hl l List.mem_cons_self⟩

theorem text_page {pages : List (List Bytes)} (h : HasText store how encode pages) (hundo : Undoes filtered how encode)
    (hfree : b!"Type" ∉ how.map (·.1)) (hb : builtin b!"WinAnsiEncoding" = none) (hp : predefined b!"WinAnsiEncoding" = none) (k : Nat) (lines : List Bytes)
    (hl : ∀ l ∈ lines, ∀ b ∈ l, b.toNat ≠ 0xA4)
    (hk : store (k + 1) 0 = some (.stream ((b!"Length", .int (encode (textContent lines)).length) :: how) (encode (textContent lines)))) :
    PageShows store filtered builtin predefined (pageEntries k) (lines.map (charsOf winAnsiChar)) := by
  refine ⟨textChain, .stream b!"StreamBasedObject" _ _, textContent lines, textOps lines, _, textDec, text_ancestry h k, ⟨fun _ => false, ?_⟩, ?_,
    ⟨_, rfl, .ref (k + 1) 0 _ _ hk (fun _ _ e => by cases e) (.stream _ _ _ (.plain ?_))⟩, .one _ _ _ _ (hundo _ _ rfl rfl), text_content lines,
    textDec_is hb hp, text_shows lines hl⟩
  · intro own ho e he
    simp only [textChain, List.mem_cons, List.not_mem_nil, or_false] at ho
    rcases ho with rfl | rfl
    · cases he
    · rw [List.mem_singleton] at he
      subst he
      rfl
  · intro own ho e he _ ns
    simp only [textChain, List.mem_cons, List.not_mem_nil, or_false] at ho
    rcases ho with rfl | rfl
    · cases he
    · rw [List.mem_singleton] at he
      subst he
      intro h
      cases h
  · show dictGet (_ :: how) _ = none
    exact dictGet_notKey _ _ (by rw [List.map_cons, List.mem_cons]; rintro (h | h); · cases h
                                 · exact hfree h)

theorem text_pages {all : List (List Bytes)} (h : HasText store how encode all) (hundo : Undoes filtered how encode)
    (hfree : b!"Type" ∉ how.map (·.1)) (hb : builtin b!"WinAnsiEncoding" = none) (hp : predefined b!"WinAnsiEncoding" = none) :
    ∀ (pages : List (List Bytes)) (k : Nat), (∀ lines ∈ pages, ∀ l ∈ lines, ∀ b ∈ l, b.toNat ≠ 0xA4) → (∀ i ∈ contentItems how encode k pages, store i.num 0 = some i.val) →
      PagesShow store filtered builtin predefined ((pageNumbers k pages).map pageEntries) (pages.map fun lines => lines.map (charsOf winAnsiChar))
  | [], _, _, _ => .nil
  | lines :: pages, k, hl, hs => by
    unfold contentItems at hs
    unfold pageNumbers
    exact .cons _ _ _ _ (text_page h hundo hfree hb hp k lines (hl _ List.mem_cons_self) (hs _ List.mem_cons_self))
      (text_pages h hundo hfree hb hp pages (k + 2) (fun l hm => hl l (List.mem_cons_of_mem _ hm)) fun i hi => hs i (List.mem_cons_of_mem _ hi))
end

end PdfReader
