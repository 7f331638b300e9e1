/-
  C106: from the bytes of a file to the images painted.
-/
import Verif.Lemmas.ImageFile
import Verif.Props.TextFile
import Verif.Props.Sealed

namespace PdfReader

open Spec

variable {filtered : List (Bytes × Obj) → Bytes → Res Bytes}

/-- What the viewer paints of a document which opens. -/
theorem serves_pictures (builtin : Builtin) (predefined : Bytes → Option CMap) {secure : Nat → Opened → Obj → Res Opened} {clamps : Bool} {file v : Bytes}
    {dict : List (Bytes × Obj)} {c : Option Bytes} {catalog : List (Bytes × Obj)} {content : Spec.Content} (h : Serves filtered secure clamps file v dict c catalog content)
    (n g : Nat) (node : List (Bytes × Obj)) (ps : List (List (Bytes × Obj))) (hpages : dictGet catalog b!"Pages" = some (.ref n g))
    (hnode : content n g = some (.dict node)) (htype : dictGet node b!"Type" = some (.name b!"Pages")) (htree : PageTree content n g ps)
    (pics : List Picture) (hshow : PagesPaint content filtered builtin predefined ps pics) (hne : ps ≠ []) :
    ∃ F, ∀ fuel, F ≤ fuel → ∃ F', ∀ fuel', F' ≤ fuel' → ∃ doc w,
      viewFile filtered builtin predefined (secure fuel) clamps fuel fuel' file = .ok doc ∧ openViewer doc = .ok w ∧
      (∃ is w', canvasAll doc (ps.length + 1) (false, w) = (is, none, w') ∧ is.length = ps.length ∧
        ∀ (n : Nat) p, pics[n]? = some p → ∃ i c, is[n]? = some i ∧ w'.heap[i]? = some c ∧ Depicts c p) ∧
      ∀ w, Clean doc w → ∀ (n : Nat) p, pics[n]? = some p → ∃ w', Viewer.navigate doc (n + 1) w = (.ok (), w') ∧
        ∃ u, w'.render = (.ok (), u) ∧ Depicts u.current p := by
  obtain ⟨F, hF⟩ := h
  refine ⟨F, fun fuel hf => ?_⟩
  obtain ⟨doc, e, _, _, I, hI, hd⟩ := hF fuel hf
  obtain ⟨F1, hF1⟩ := C46_order (hd fuel hf) c catalog n g ps hpages htree (fun es h => by
    rw [hnode] at h
    cases h
    exact htype)
  obtain ⟨F2, hF2⟩ := pictures_soon (hd fuel hf) hshow
  refine ⟨F1 + F2, fun fuel' hf' => ?_⟩
  obtain ⟨s', hs', e'⟩ := hF1 fuel' (by omega) doc.st hI
  obtain ⟨cs, hall, hdep⟩ := hF2 fuel' (by omega) s' hs'
  have hv : viewFile filtered builtin predefined (secure fuel) clamps fuel fuel' file =
      .ok { pages := (ps.map asPage).map (pageInfo filtered builtin predefined (locate doc.env fuel) fuel' s'), fails := none } := by
    unfold viewFile
    rw [e]
    dsimp only
    unfold viewDoc
    rw [e']
  have hlen : ps.length = cs.length := by
    have := (shown_at hall).1
    simpa using this
  have hcne : cs ≠ [] := by
    intro h
    rw [h] at hlen
    exact hne (List.length_eq_zero_iff.mp hlen)
  obtain ⟨w, h1, ⟨is, w', h2, h3⟩, h4⟩ := view_shown (doc := { pages := (ps.map asPage).map (pageInfo filtered builtin predefined (locate doc.env fuel) fuel' s'), fails := none }) rfl hall hcne
  obtain ⟨hl, hat⟩ := depict_at hdep
  refine ⟨_, w, hv, h1, ⟨is, w', by rw [hlen]; exact h2, ?_, fun n p hp => ?_⟩, fun w hw n p hp => ?_⟩
  · have := congrArg List.length h3
    rw [List.length_map, List.length_map] at this
    rw [hlen, this]
  · obtain ⟨c, hc, hdc⟩ := hat n p hp
    have := congrArg (·[n]?) h3
    simp only [List.getElem?_map, hc] at this
    cases hi : is[n]? with
    | none => rw [hi] at this; cases this
    | some i =>
      rw [hi] at this
      exact ⟨i, c, rfl, Option.some.inj this, hdc⟩
  · obtain ⟨c, hc, hdc⟩ := hat n p hp
    obtain ⟨w', n1, u, u1, u2⟩ := h4 w hw n c hc
    exact ⟨w', n1, u, u1, by rw [u2]; exact hdc⟩

/-- C106: a file whose page tree has pages with readable content opens in the viewer; iterating over the viewer gives, page by page, a canvas with
the strings of the page, its inline images, exactly the image XObjects which its content paints, under their names and as the nearest resources
define them, and canvases for exactly the forms painted, each with the strings of the form; and the same after going to a page by its number. -/
theorem C106_images (builtin : Builtin) (predefined : Bytes → Option CMap) (secure : Opened → Obj → Res Opened) (clamps : Bool) (file v : Bytes) (k off : Nat)
    (r : Revision) (rs : List Revision) (content : Spec.Content) (hh : HeaderAt file v k) (hs : StartsAt file off) (hb : clamps = true ∨ 1024 ≤ file.length)
    (hsec : SectionsFrom (fun d raw data => filtered d raw = .ok data) file off (r :: rs))
    (hc : Spec.Holds (fun d raw data => filtered d raw = .ok data) AsIs file k (r :: rs) content) (henc : NoEntry r.dict b!"Encrypt")
    (a b : Nat) (catalog : List (Bytes × Obj)) (c : Option Bytes) (hroot : dictGet r.dict b!"Root" = some (.ref a b))
    (hcat : content a b = some (.dict catalog)) (hcls : DictKind catalog c)
    (n g : Nat) (node : List (Bytes × Obj)) (ps : List (List (Bytes × Obj))) (hpages : dictGet catalog b!"Pages" = some (.ref n g))
    (hnode : content n g = some (.dict node)) (htype : dictGet node b!"Type" = some (.name b!"Pages")) (htree : PageTree content n g ps)
    (pics : List Picture) (hshow : PagesPaint content filtered builtin predefined ps pics) (hne : ps ≠ []) :
    ∃ F, ∀ fuel, F ≤ fuel → ∃ F', ∀ fuel', F' ≤ fuel' → ∃ doc w,
      viewFile filtered builtin predefined secure clamps fuel fuel' file = .ok doc ∧ openViewer doc = .ok w ∧
      (∃ is w', canvasAll doc (ps.length + 1) (false, w) = (is, none, w') ∧ is.length = ps.length ∧
        ∀ (n : Nat) p, pics[n]? = some p → ∃ i c, is[n]? = some i ∧ w'.heap[i]? = some c ∧ Depicts c p) ∧
      ∀ w, Clean doc w → ∀ (n : Nat) p, pics[n]? = some p → ∃ w', Viewer.navigate doc (n + 1) w = (.ok (), w') ∧
        ∃ u, w'.render = (.ok (), u) ∧ Depicts u.current p :=
  serves_pictures builtin predefined (openDocument_opens secure clamps file v k off r rs content hh hs hb hsec hc henc a b catalog c hroot hcat hcls) n g node ps hpages
    hnode htype htree pics hshow hne

/-- Images of a document which opens. -/
theorem serves_pillow {secure : Nat → Opened → Obj → Res Opened} {clamps : Bool} {file v : Bytes}
    {dict : List (Bytes × Obj)} {c : Option Bytes} {catalog : List (Bytes × Obj)} {content : Spec.Content} (h : Serves filtered secure clamps file v dict c catalog content) :
    ∃ F, ∀ fuel, F ≤ fuel → ∃ doc root, openDocument filtered (secure fuel) clamps fuel file = .ok (doc, root) ∧
      ∀ (cls : Bytes) d raw p, Pictured content filtered d raw p → ∃ F', ∀ fuel', F' ≤ fuel' → ∀ history : List (Nat × Nat), (∀ k ∈ history, content k.1 k.2 ≠ none) →
        (imagePillow filtered (locate doc.env fuel) fuel' (.stream cls d raw) (asked doc.env fuel history doc.st)).1 = .ok p := by
  obtain ⟨F, hF⟩ := h
  refine ⟨F, fun fuel hf => ?_⟩
  obtain ⟨doc, e, _, _, I, hI, hd⟩ := hF fuel hf
  refine ⟨doc, _, e, fun cls d raw p hp => ?_⟩
  obtain ⟨F', hF'⟩ := pictured_gives (hd fuel hf) hp cls
  exact ⟨F', fun fuel' hf' history hk => (hF' fuel' hf' _ (asked_keeps (hd fuel hf) history doc.st hI hk)).1⟩

/-- C106, the pixels: whatever was asked of the document before, `to_Pillow()` of an image XObject of the file gives Pillow the pixels, the palette or the encoded
file which the dictionary describes, with all references in the dictionary resolved. -/
theorem C106_pillow (secure : Opened → Obj → Res Opened) (clamps : Bool) (file v : Bytes) (k off : Nat)
    (r : Revision) (rs : List Revision) (content : Spec.Content) (hh : HeaderAt file v k) (hs : StartsAt file off) (hb : clamps = true ∨ 1024 ≤ file.length)
    (hsec : SectionsFrom (fun d raw data => filtered d raw = .ok data) file off (r :: rs))
    (hc : Spec.Holds (fun d raw data => filtered d raw = .ok data) AsIs file k (r :: rs) content) (henc : NoEntry r.dict b!"Encrypt")
    (a b : Nat) (catalog : List (Bytes × Obj)) (c : Option Bytes) (hroot : dictGet r.dict b!"Root" = some (.ref a b))
    (hcat : content a b = some (.dict catalog)) (hcls : DictKind catalog c) :
    ∃ F, ∀ fuel, F ≤ fuel → ∃ doc root, openDocument filtered secure clamps fuel file = .ok (doc, root) ∧
      ∀ (cls : Bytes) d raw p, Pictured content filtered d raw p → ∃ F', ∀ fuel', F' ≤ fuel' → ∀ history : List (Nat × Nat), (∀ k ∈ history, content k.1 k.2 ≠ none) →
        (imagePillow filtered (locate doc.env fuel) fuel' (.stream cls d raw) (asked doc.env fuel history doc.st)).1 = .ok p :=
  serves_pillow (openDocument_opens secure clamps file v k off r rs content hh hs hb hsec hc henc a b catalog c hroot hcat hcls)

/-- C106 for encrypted documents: with the user or owner password the viewer paints the images of the pages, and `to_Pillow()` of an image gives Pillow
the decrypted and decoded pixels, palette or encoded file. -/
theorem C106_encrypted (builtin : Builtin) (predefined : Bytes → Option CMap) (C : Crypto) (enc : Bytes → Bytes → Bytes) (hC : C.Good enc) (back : Env → Nat → Nat → M (Option Obj)) (clamps : Bool) (file v : Bytes) (k off : Nat)
    (r : Revision) (rs : List Revision) (content : Spec.Content) (hh : HeaderAt file v k) (hs : StartsAt file off) (hb : clamps = true ∨ 1024 ≤ file.length)
    (hsec : SectionsFrom (fun d raw data => filtered d raw = .ok data) file off (r :: rs))
    (en eg : Nat) (d : List (Bytes × Obj)) (henc : dictGet r.dict b!"Encrypt" = some (.ref en eg)) (hd : content en eg = some (.dict d))
    (hcur : ∃ off, CurrentAt (r :: rs) en eg off) (hfil : dictGet d b!"Filter" = some (.name b!"Standard"))
    (password : Text) (pw key : Bytes) (hp : utf8 password = .ok pw) (hun : Unlocks (ciphers C enc) (dictGet r.dict b!"ID") d pw key)
    (hc : Spec.Holds (fun d raw data => filtered d raw = .ok data) (Stored (ciphers C enc) key d) file k (r :: rs) content)
    (a b : Nat) (catalog : List (Bytes × Obj)) (c : Option Bytes) (hroot : dictGet r.dict b!"Root" = some (.ref a b))
    (hcat : content a b = some (.dict catalog)) (hcls : DictKind catalog c)
    (n g : Nat) (node : List (Bytes × Obj)) (ps : List (List (Bytes × Obj))) (hpages : dictGet catalog b!"Pages" = some (.ref n g))
    (hnode : content n g = some (.dict node)) (htype : dictGet node b!"Type" = some (.name b!"Pages")) (htree : PageTree content n g ps)
    (pics : List Picture) (hshow : PagesPaint content filtered builtin predefined ps pics) (hne : ps ≠ []) :
    (∃ F, ∀ fuel, F ≤ fuel → ∃ F', ∀ fuel', F' ≤ fuel' → ∃ doc w,
      viewFile filtered builtin predefined (secureWith C back fuel password) clamps fuel fuel' file = .ok doc ∧ openViewer doc = .ok w ∧
      (∃ is w', canvasAll doc (ps.length + 1) (false, w) = (is, none, w') ∧ is.length = ps.length ∧
        ∀ (n : Nat) p, pics[n]? = some p → ∃ i c, is[n]? = some i ∧ w'.heap[i]? = some c ∧ Depicts c p) ∧
      ∀ w, Clean doc w → ∀ (n : Nat) p, pics[n]? = some p → ∃ w', Viewer.navigate doc (n + 1) w = (.ok (), w') ∧
        ∃ u, w'.render = (.ok (), u) ∧ Depicts u.current p) ∧
    ∃ F, ∀ fuel, F ≤ fuel → ∃ doc root, openWith C back filtered clamps fuel password file = .ok (doc, root) ∧
      ∀ (cls : Bytes) d raw p, Pictured content filtered d raw p → ∃ F', ∀ fuel', F' ≤ fuel' → ∀ history : List (Nat × Nat), (∀ k ∈ history, content k.1 k.2 ≠ none) →
        (imagePillow filtered (locate doc.env fuel) fuel' (.stream cls d raw) (asked doc.env fuel history doc.st)).1 = .ok p := by
  have h := sealed_serves C enc hC (fun _ => back) clamps file v k off r rs content hh hs hb hsec en eg d henc hd _ (listed_found back hc hd hcur hfil) hfil password pw key hp hun hc a b catalog c
    hroot hcat hcls
  exact ⟨serves_pictures builtin predefined h n g node ps hpages hnode htype htree pics hshow hne, serves_pillow h⟩

/-! ### Images written into a file -/

variable {how : List (Bytes × Obj)} {encode : Bytes → Bytes}

theorem image_numbers_form : ∀ (bs : List Bitmap) (k : Nat), ∀ i ∈ imageItems how encode k bs, k ≤ i.num ∧ i.gen = 0
  | [], k, i, h => by cases h
  | b :: bs, k, i, h => by
    unfold imageItems at h
    simp only [List.mem_cons] at h
    rcases h with rfl | rfl | rfl | h
    · exact ⟨Nat.le_refl _, rfl⟩
    · exact ⟨Nat.le_succ _, rfl⟩
    · exact ⟨Nat.le_add_right k 2, rfl⟩
    · have := image_numbers_form bs (k + 3) i h
      exact ⟨by omega, this.2⟩

theorem image_nums : ∀ (bs : List Bitmap) (k : Nat), ((imageItems how encode k bs).map (·.num)).Nodup
  | [], k => List.nodup_nil
  | b :: bs, k => by
    have later : ∀ j, j < 3 → k + j ∉ (imageItems how encode (k + 3) bs).map (·.num) := by
      intro j hj hm
      obtain ⟨i, hi, e⟩ := List.mem_map.mp hm
      have := (image_numbers_form bs (k + 3) i hi).1
      omega
    unfold imageItems
    simp only [List.map_cons, List.nodup_cons, List.mem_cons, not_or]
    exact ⟨⟨by omega, by omega, later 0 (by omega)⟩, ⟨by omega, later 1 (by omega)⟩, later 2 (by omega), image_nums bs (k + 3)⟩

theorem image_ok (hh : HowOk how) : ∀ (bs : List Bitmap) (k : Nat), ∀ i ∈ imageItems how encode k bs, WritableValue i.val ∧
    ∀ e data, i.val = .stream e data → ∀ v, (b!"Type", v) ∈ e → v ∉ [.name b!"ObjStm", .hex b!"ObjStm", .token b!"ObjStm"]
  | [], k, i, h => by cases h
  | b :: bs, k, i, h => by
    unfold imageItems at h
    simp only [List.mem_cons] at h
    rcases h with rfl | rfl | rfl | h
    · refine ⟨⟨by simp [imagePage], trivial, trivial, trivial, ?_, trivial⟩, fun e data h => by cases h⟩
      exact ⟨(show [b!"XObject"].Nodup by decide), ⟨(show [b!"Im"].Nodup by decide), trivial, trivial⟩, trivial⟩
    · refine ⟨⟨List.nodup_cons.mpr ⟨hh.not (k := b!"Length") (by decide), hh.keys⟩, ⟨trivial, hh.ents⟩, List.mem_cons_self⟩, fun e data h v hv => ?_⟩
      cases h
      rcases List.mem_cons.mp hv with h | h
      · cases h
      · exact absurd (List.mem_map.mpr ⟨_, h, rfl⟩) (hh.not (k := b!"Type") (by decide))
    · refine ⟨⟨?_, ⟨trivial, trivial, trivial, trivial, trivial, trivial, trivial, hh.ents⟩, List.mem_cons_self⟩, fun e data h v hv => ?_⟩
      · unfold imageEntries
        rw [List.map_append]
        refine List.nodup_append.mpr ⟨(show [b!"Length", b!"Type", b!"Subtype", b!"Width", b!"Height", b!"ColorSpace", b!"BitsPerComponent"].Nodup by decide), hh.keys, ?_⟩
        intro x hx y hy e
        subst e
        have hy := hh.only x hy
        revert hx
        simp only [List.mem_cons, List.not_mem_nil, or_false] at hy
        rcases hy with rfl | rfl
        · show _ ∉ [b!"Length", b!"Type", b!"Subtype", b!"Width", b!"Height", b!"ColorSpace", b!"BitsPerComponent"]
          decide
        · show _ ∉ [b!"Length", b!"Type", b!"Subtype", b!"Width", b!"Height", b!"ColorSpace", b!"BitsPerComponent"]
          decide
      · cases h
        unfold imageEntries at hv
        rcases List.mem_append.mp hv with hv | hv
        · simp only [List.mem_cons, Prod.mk.injEq, List.not_mem_nil, or_false] at hv
          rcases hv with h | h | h | h | h | h | h
          · exact absurd h.1 (by decide)
          · rw [h.2]; decide
          · exact absurd h.1 (by decide)
          · exact absurd h.1 (by decide)
          · exact absurd h.1 (by decide)
          · exact absurd h.1 (by decide)
          · exact absurd h.1 (by decide)
        · exact absurd (List.mem_map.mpr ⟨_, hv, rfl⟩) (hh.not (k := b!"Type") (by decide))
    · exact image_ok hh bs (k + 3) i h

theorem imageDraft_nums (bs : List Bitmap) : ((imageDraft how encode bs).items.map (·.num)).Nodup := by
  have later : ∀ j, j < 3 → j ∉ (imageItems how encode 3 bs).map (·.num) := by
    intro j hj hm
    obtain ⟨i, hi, e⟩ := List.mem_map.mp hm
    have := (image_numbers_form bs 3 i hi).1
    omega
  unfold imageDraft
  simp only [List.map_cons, List.nodup_cons, List.mem_cons, not_or]
  exact ⟨⟨by omega, later 1 (by omega)⟩, later 2 (by omega), image_nums bs 3⟩

theorem imageDraft_ok (hh : HowOk how) (bs : List Bitmap) : (imageDraft how encode bs).Ok where
  nonempty := by simp [imageDraft]
  vals := by
    intro i hi
    unfold imageDraft at hi
    simp only [List.mem_cons] at hi
    rcases hi with rfl | rfl | hi
    · exact writable_value (o := .dict catalogDict) ⟨by decide, trivial, trivial, trivial⟩
    · exact writable_value (o := .dict (imageTree bs)) ⟨(show [b!"Type", b!"Kids", b!"Count"].Nodup by decide), trivial, refs_writable _, trivial, trivial⟩
    · exact (image_ok hh bs 3 i hi).1
  plain := by
    intro i hi
    unfold imageDraft at hi
    simp only [List.mem_cons] at hi
    rcases hi with rfl | rfl | hi
    · intro e data h; cases h
    · intro e data h; cases h
    · exact (image_ok hh bs 3 i hi).2
  nums := imageDraft_nums bs
  gens := by
    intro i hi
    unfold imageDraft at hi
    simp only [List.mem_cons] at hi
    rcases hi with rfl | rfl | hi
    · show 0 < 10 ^ 5; decide
    · show 0 < 10 ^ 5; decide
    · rw [(image_numbers_form bs 3 i hi).2]
      show 0 < 10 ^ 5
      decide
  keys := (show [b!"Size", b!"Root"].Nodup by decide)
  ents := ⟨trivial, trivial, trivial⟩
  noPrev := (show b!"Prev" ∉ [b!"Size", b!"Root"] by decide)

theorem imageDraft_has (bs : List Bitmap) : ∀ i ∈ (imageDraft how encode bs).items, contentOf ([] ++ [imageDraft how encode bs]) i.num i.gen = some i.val := by
  intro i hi
  unfold contentOf
  rw [List.nil_append, List.reverse_singleton, List.findSome?_cons, find_num (imageDraft_nums bs) hi]
  rfl

section
variable {store : Store} {builtin : Builtin} {predefined : Bytes → Option CMap}

theorem image_kids : ∀ (bs : List Bitmap) (k : Nat), (∀ i ∈ imageItems how encode k bs, store i.num 0 = some i.val) →
    PageTrees store ((imageNumbers k bs).map fun n => (n, 0)) ((imageNumbers k bs).map imagePage)
  | [], k, _ => .nil
  | b :: bs, k, h => by
    unfold imageNumbers
    unfold imageItems at h
    exact .cons k 0 _ [_] _ (.page k 0 _ (h _ List.mem_cons_self) rfl)
      (image_kids bs (k + 3) fun i hi => h i (List.mem_cons_of_mem _ (List.mem_cons_of_mem _ (List.mem_cons_of_mem _ hi))))

/-- The image as the viewer has it. -/
def imageVal (how : List (Bytes × Obj)) (encode : Bytes → Bytes) (b : Bitmap) : Val := .stream b!"Image" (imageEntries how b (encode b.data)) (encode b.data)

def imageChain (how : List (Bytes × Obj)) (encode : Bytes → Bytes) (b : Bitmap) : List (List (Bytes × Category)) :=
  [[(b!"XObject", .named [(b!"Im", imageVal how encode b)])], []]

/-- What the page of an image paints: the image under its name. -/
def imagePicture (how : List (Bytes × Obj)) (encode : Bytes → Bytes) (b : Bitmap) : Picture where
  strings := []
  inline := []
  images n := if n = b!"Im" then some (imageVal how encode b) else none
  forms _ := none

theorem image_content : ContentText [] [.op b!"Do" [.name b!"Im"]] imageContent := by
  have f1 : Den false (.obj (.name b!"Im")) b!"/Im" :=
    .name _ _ (.plain 73 _ _ ((regular_iff _).mpr rfl) (by decide) (.plain 109 _ _ ((regular_iff _).mpr rfl) (by decide) .nil))
  have hop : OpText b!"Do" := by
    refine ⟨by decide, fun c hc => (regular_iff c).mpr (by revert c; decide), ?_, by decide⟩
    rintro c t' h
    cases h
    simp [Digit]
  have ns : NotStart SepChar b!"Do" :=
    notStart_mk (by rintro (h | h); · rw [ws_iff] at h; revert h; decide
                    · revert h; decide)
  exact .operand [] _ [] _ b!"/Im" [32] b!"Do" .nil f1 sep_blank ns (fun _ => stop_space) (by rintro ⟨d, h⟩; cases h)
    (.op _ _ [32] b!"Do" [] sep_blank hop notStart_nil (.done _ _ .nil))

theorem image_page {all : List Bitmap} (htree : store 2 0 = some (.dict (imageTree all))) (hundo : Undoes filtered how encode)
    (k : Nat) (b : Bitmap) (hraw : encode b.data ≠ []) (hh : HowOk how)
    (h1 : store (k + 1) 0 = some (.stream ((b!"Length", .int (encode imageContent).length) :: how) (encode imageContent)))
    (h2 : store (k + 2) 0 = some (.stream (imageEntries how b (encode b.data)) (encode b.data))) :
    PagePaints store filtered builtin predefined (imagePage k) (imagePicture how encode b) := by
  have hnear : ∀ n, nearest (imageChain how encode b) b!"XObject" n = if n = b!"Im" then some (imageVal how encode b) else none := by
    intro n
    unfold imageChain nearest
    rw [List.findSome?_cons]
    have : definedIn [(b!"XObject", .named [(b!"Im", imageVal how encode b)])] b!"XObject" n = if n = b!"Im" then some (imageVal how encode b) else none := by
      show (List.find? (fun e : Bytes × Val => e.1 == n) [(b!"Im", imageVal how encode b)]).map _ = _
      by_cases hn : n = b!"Im"
      · subst hn
        rw [if_pos rfl]
        rfl
      · rw [if_neg hn, List.find?_cons_of_neg (by simpa using fun e : b!"Im" = n => hn e.symm)]
        rfl
    rw [this]
    by_cases hn : n = b!"Im"
    · rw [if_pos hn]
    · rw [if_neg hn]
      rfl
  have hpaints : ∀ n, Paints [.op b!"Do" [.name b!"Im"]] n ↔ n = b!"Im" := by
    intro n
    unfold Paints
    constructor
    · rintro ⟨o, rest, hm, hn⟩
      rw [List.mem_singleton] at hm
      cases hm
      rcases hn with h | h | h
      · cases h; rfl
      · cases h
      · cases h
    · rintro rfl
      exact ⟨_, _, List.mem_singleton.mpr rfl, Or.inl rfl⟩
  refine ⟨imageChain how encode b, .stream b!"StreamBasedObject" _ _, imageContent, [.op b!"Do" [.name b!"Im"]], [none], fun _ _ => none, ?_, ⟨fun _ => false, ?_⟩, ?_,
    ⟨_, rfl, .ref (k + 1) 0 _ _ h1 (fun _ _ e => by cases e) (.stream _ _ _ (.plain ?_))⟩, .one _ _ _ _ (hundo _ _ rfl rfl), image_content, fun f o t e => (by simp at e), ?_, rfl, ?_, ?_, fun n us e => (by cases e)⟩
  · refine .child _ _ (some b!"Pages") (imageTree all) _ ?_ ⟨.ref 2 0, rfl, .ref 2 0 _ _ htree (fun _ _ e => by cases e) (.dict _ _ (.typed _ rfl (by decide)))⟩
      (by simp [imageTree]) (.top _ _ (.absent (Or.inl rfl)) (Or.inl rfl))
    refine .present none _ _ ⟨_, rfl, .dict _ _ (.untyped rfl)⟩ (.cons _ _ (.dict none [(b!"Im", .ref (k + 2) 0)]) _ _ _ (.dict _ _ (.untyped rfl)) (.named _ _ _ ?_ (by simp)) .nil) (by simp)
    exact .cons _ _ _ _ _ (.ref (k + 2) 0 _ _ h2 (fun _ _ e => by cases e) (.stream _ _ _ (.xobject b!"Image" rfl rfl (by decide)))) .nil
  · intro own ho e he
    simp only [imageChain, List.mem_cons, List.not_mem_nil, or_false] at ho
    rcases ho with rfl | rfl
    · rw [List.mem_singleton] at he
      subst he
      rfl
    · cases he
  · intro own ho e he _ ns
    simp only [imageChain, List.mem_cons, List.not_mem_nil, or_false] at ho
    rcases ho with rfl | rfl
    · rw [List.mem_singleton] at he
      subst he
      intro h
      cases h
    · cases he
  · show dictGet (_ :: how) _ = none
    exact dictGet_notKey _ _ (by rw [List.map_cons, List.mem_cons]; rintro (h | h); · cases h
                                 · exact hh.not (k := b!"Type") (by decide) h)
  · refine .xobject _ _ _ _ _ _ ?_ ⟨_, _, rfl, fun d raw e => ?_⟩ (.nil _)
    · intro o ho
      rw [List.mem_singleton] at ho
      subst ho
      exact .name _
    · rw [hnear, if_pos rfl] at e
      have := Option.some.inj e
      unfold imageVal at this
      injection this with h
      exact absurd h (by decide)
  · intro n x
    rw [hpaints, hnear]
    show (if n = b!"Im" then some (imageVal how encode b) else none) = some x ↔ _
    constructor
    · intro e
      by_cases hn : n = b!"Im"
      · refine ⟨hn, e, ?_⟩
        rw [if_pos hn] at e
        exact ⟨_, _, (Option.some.inj e).symm, hraw⟩
      · rw [if_neg hn] at e
        cases e
    · exact fun h => h.2.1
  · intro n
    rw [hpaints, hnear]
    refine ⟨(by rintro ⟨us, e⟩; cases e), ?_⟩
    rintro ⟨rfl, d, raw, e, _⟩
    rw [if_pos rfl] at e
    have := Option.some.inj e
    unfold imageVal at this
    injection this with h
    exact absurd h (by decide)
theorem image_pages {all : List Bitmap} (htree : store 2 0 = some (.dict (imageTree all))) (hundo : Undoes filtered how encode) (hh : HowOk how) :
    ∀ (bs : List Bitmap) (k : Nat), (∀ b ∈ bs, encode b.data ≠ []) → (∀ i ∈ imageItems how encode k bs, store i.num 0 = some i.val) →
      PagesPaint store filtered builtin predefined ((imageNumbers k bs).map imagePage) (bs.map (imagePicture how encode))
  | [], _, _, _ => .nil
  | b :: bs, k, hl, hs => by
    unfold imageItems at hs
    unfold imageNumbers
    refine .cons _ _ _ _ (image_page htree hundo k b (hl _ List.mem_cons_self) hh (hs ⟨k + 1, 0, _⟩ (by simp)) (hs ⟨k + 2, 0, _⟩ (by simp))) ?_
    exact image_pages htree hundo hh bs (k + 3) (fun l hm => hl l (List.mem_cons_of_mem _ hm)) fun i hi =>
      hs i (List.mem_cons_of_mem _ (List.mem_cons_of_mem _ (List.mem_cons_of_mem _ hi)))

theorem filterIs_same {d d' : List (Bytes × Obj)} {f : ImgFilter} (h : FilterIs store d f) (e : dictGet d' b!"Filter" = dictGet d b!"Filter") : FilterIs store d' f := by
  cases h with
  | absent h => exact .absent (by unfold NoEntry at h ⊢; rw [e]; exact h)
  | one n h => exact .one n (by unfold EntryIs at h ⊢; rw [e]; exact h)
  | many ns h => exact .many ns (by unfold EntryIs at h ⊢; rw [e]; exact h)

theorem image_pictured (hundo : Undoes filtered how encode) (hh : HowOk how) {f : ImgFilter} (hf : FilterIs store how f) (hp : PlainFilter f) (b : Bitmap)
    (hb : b.data.length = 3 * b.width * b.height) :
    Pictured store filtered (imageEntries how b (encode b.data)) (encode b.data) (.pixels b!"RGB" b.width b.height b.data) := by
  refine .device b.width b.height f b!"DeviceRGB" b!"RGB" b.data 3 ⟨⟨_, rfl, .atom _ trivial⟩, ⟨_, rfl, .atom _ trivial⟩⟩ (filterIs_same hf rfl) hp (Or.inl (Or.inl ?_))
    ⟨_, rfl, .atom _ trivial⟩ (by decide) (by decide) (hundo _ _ rfl rfl) ?_
  · show dictGet (_ ++ how) _ = none
    refine dictGet_notKey _ _ ?_
    rw [List.map_append]
    intro h
    rcases List.mem_append.mp h with h | h
    · revert h
      show _ ∉ [b!"Length", b!"Type", b!"Subtype", b!"Width", b!"Height", b!"ColorSpace", b!"BitsPerComponent"]
      decide
    · exact hh.not (k := b!"ImageMask") (by decide) h
  · unfold fullSize
    rw [hb, show (b.width * 3 * 8 + 7) / 8 = 3 * b.width by omega, Nat.mul_comm]
end

theorem imageNumbers_length : ∀ (bs : List Bitmap) (k : Nat), (imageNumbers k bs).length = bs.length
  | [], _ => rfl
  | _ :: bs, k => by unfold imageNumbers; rw [List.length_cons, List.length_cons, imageNumbers_length bs]

/-- C106, from pixels to pixels: for all images of red, green and blue with 8 bits each, and any way of encoding their data which the filters undo:
when a document with a page for each of them is written and opened in the viewer, iterating over the viewer gives for each page, in order, a
canvas with exactly one image; and whatever was asked of the document before, converting it gives Pillow the width, the height and the pixels
which were written. -/
theorem C106_written (builtin : Builtin) (predefined : Bytes → Option CMap) (secure : Opened → Obj → Res Opened) (clamps : Bool) (hh : HowOk how)
    (hundo : Undoes filtered how encode) (f : ImgFilter) (hf : ∀ store, FilterIs store how f) (hp : PlainFilter f) (bs : List Bitmap) (hne : bs ≠ [])
    (hbs : ∀ b ∈ bs, b.data.length = 3 * b.width * b.height ∧ encode b.data ≠ []) (hsmall : (writeFile [imageDraft how encode bs]).length < 10 ^ 10)
    (hb : clamps = true ∨ 1024 ≤ (writeFile [imageDraft how encode bs]).length) :
    ∃ F, ∀ fuel, F ≤ fuel → ∃ o root, openDocument filtered secure clamps fuel (writeFile [imageDraft how encode bs]) = .ok (o, root) ∧
      ∃ F', ∀ fuel', F' ≤ fuel' → ∃ doc w,
        viewFile filtered builtin predefined secure clamps fuel fuel' (writeFile [imageDraft how encode bs]) = .ok doc ∧ openViewer doc = .ok w ∧
        ∃ is w', canvasAll doc (bs.length + 1) (false, w) = (is, none, w') ∧ is.length = bs.length ∧
          ∀ (n : Nat) b, bs[n]? = some b → ∃ i c x, is[n]? = some i ∧ w'.heap[i]? = some c ∧ (∀ m, assoc m c.images = if m = b!"Im" then some x else none) ∧
            ∀ history : List (Nat × Nat), (∀ k ∈ history, contentOf [imageDraft how encode bs] k.1 k.2 ≠ none) →
              (imagePillow filtered (locate o.env fuel) fuel' x (asked o.env fuel history o.st)).1 = .ok (.pixels b!"RGB" b.width b.height b.data) := by
  have has := imageDraft_has (how := how) (encode := encode) bs
  have hok : ∀ d ∈ [] ++ [imageDraft how encode bs], d.Ok := by intro d hd; rw [List.nil_append, List.mem_singleton] at hd; subst hd; exact imageDraft_ok hh bs
  have hd : [] ++ [imageDraft how encode bs] ≠ [] := by simp
  have hsec := sections_of _ hd hok hsmall (fun d raw data => filtered d raw = .ok data)
  have hc := holds_of (decoded := fun d raw data => filtered d raw = .ok data) _ hok
  obtain ⟨r, rs, e, prev, hdict⟩ := revs_cons [] (imageDraft how encode bs) fileHeader.length none
  rw [e] at hsec hc
  have hserves := openDocument_opens secure clamps (writeFile ([] ++ [imageDraft how encode bs])) _ 0 _ r rs _ (header_at _ hd) (starts_at _ hd) hb hsec hc
    (by unfold NoEntry; rw [hdict, dict_other _ _ _ (by decide)]; exact Or.inl rfl) 1 0 catalogDict (some b!"Catalog")
    (by rw [hdict, dict_other _ _ _ (by decide)]; rfl) (has ⟨1, 0, .dict catalogDict⟩ (by simp [imageDraft])) (.typed _ rfl (by decide))
  have h2 := has ⟨2, 0, .dict (imageTree bs)⟩ (by simp [imageDraft])
  have hitems : ∀ i ∈ imageItems how encode 3 bs, contentOf ([] ++ [imageDraft how encode bs]) i.num 0 = some i.val := by
    intro i hi
    have := has i (by unfold imageDraft; exact List.mem_cons_of_mem _ (List.mem_cons_of_mem _ hi))
    rw [(image_numbers_form bs 3 i hi).2] at this
    exact this
  have hlen : ((imageNumbers 3 bs).map imagePage).length = bs.length := by rw [List.length_map, imageNumbers_length]
  obtain ⟨F1, hF1⟩ := serves_pictures builtin predefined hserves 2 0 (imageTree bs) _ rfl h2 rfl
    (.node 2 0 (imageTree bs) ((imageNumbers 3 bs).map fun n => (n, 0)) _ h2 rfl (.direct _ _ (by rw [List.map_map]; rfl)) (image_kids (how := how) (encode := encode) bs 3 hitems)) _
    (image_pages h2 hundo hh bs 3 (fun b hb => (hbs b hb).2) hitems) (by intro e; rw [e] at hlen; exact hne (List.length_eq_zero_iff.mp hlen.symm))
  obtain ⟨F2, hF2⟩ := serves_pillow hserves
  refine ⟨F1 + F2, fun fuel hfuel => ?_⟩
  obtain ⟨o, root, ho, hpil⟩ := hF2 fuel (by omega)
  refine ⟨o, root, ho, ?_⟩
  obtain ⟨F3, hF3⟩ := hF1 fuel (by omega)
  obtain ⟨F4, hF4⟩ := ev_list bs (fun b hb => hpil b!"Image" _ _ _ (image_pictured hundo hh (hf _) hp b (hbs b hb).1))
  refine ⟨F3 + F4, fun fuel' hf' => ?_⟩
  obtain ⟨doc, w, v1, v2, ⟨is, w', v3, v4, v5⟩, _⟩ := hF3 fuel' (by omega)
  rw [hlen] at v3 v4
  refine ⟨doc, w, v1, v2, is, w', v3, v4, fun n b hn => ?_⟩
  obtain ⟨i, c, c1, c2, c3⟩ := v5 n (imagePicture how encode b) (by rw [List.getElem?_map, hn]; rfl)
  exact ⟨i, c, imageVal how encode b, c1, c2, c3.images, fun history hk => hF4 fuel' (by omega) b (List.mem_of_getElem? hn) history hk⟩

/-- Two images: one pixel, and a column of two. -/
def twoBitmaps : List Bitmap := [⟨1, 1, [255, 0, 10]⟩, ⟨1, 2, [1, 2, 3, 4, 5, 6]⟩]

/-- What is written for the first page. -/
example : (imageItems [(b!"Filter", .name b!"ASCIIHexDecode")] toHex 3 twoBitmaps).map (fun i => (i.num, i.val)) = [
    (3, .dict [(b!"Type", .name b!"Page"), (b!"Parent", .ref 2 0), (b!"Contents", .ref 4 0), (b!"Resources", .dict [(b!"XObject", .dict [(b!"Im", .ref 5 0)])])]),
    (4, .stream [(b!"Length", .int 13), (b!"Filter", .name b!"ASCIIHexDecode")] b!"2F496D20446F>"),
    (5, .stream [(b!"Length", .int 7), (b!"Type", .name b!"XObject"), (b!"Subtype", .name b!"Image"), (b!"Width", .int 1), (b!"Height", .int 1),
      (b!"ColorSpace", .name b!"DeviceRGB"), (b!"BitsPerComponent", .int 8), (b!"Filter", .name b!"ASCIIHexDecode")] b!"FF000A>"),
    (6, .dict [(b!"Type", .name b!"Page"), (b!"Parent", .ref 2 0), (b!"Contents", .ref 7 0), (b!"Resources", .dict [(b!"XObject", .dict [(b!"Im", .ref 8 0)])])]),
    (7, .stream [(b!"Length", .int 13), (b!"Filter", .name b!"ASCIIHexDecode")] b!"2F496D20446F>"),
    (8, .stream [(b!"Length", .int 13), (b!"Type", .name b!"XObject"), (b!"Subtype", .name b!"Image"), (b!"Width", .int 1), (b!"Height", .int 2),
      (b!"ColorSpace", .name b!"DeviceRGB"), (b!"BitsPerComponent", .int 8), (b!"Filter", .name b!"ASCIIHexDecode")] b!"010203040506>")] := by decide +kernel

/-- The hypotheses of C106 are met. -/
example (x : Ext) (secure : Opened → Obj → Res Opened) :
    ∃ F, ∀ fuel, F ≤ fuel → ∃ o root, openDocument (streamData x) secure true fuel (writeFile [imageDraft [(b!"Filter", .name b!"ASCIIHexDecode")] toHex twoBitmaps]) = .ok (o, root) ∧
      ∃ F', ∀ fuel', F' ≤ fuel' → ∃ doc w,
        viewFile (streamData x) (fun _ => none) (fun _ => none) secure true fuel fuel' (writeFile [imageDraft [(b!"Filter", .name b!"ASCIIHexDecode")] toHex twoBitmaps]) = .ok doc ∧
        openViewer doc = .ok w ∧ ∃ is w', canvasAll doc 3 (false, w) = (is, none, w') ∧ is.length = 2 ∧
          ∃ i c y, is[1]? = some i ∧ w'.heap[i]? = some c ∧ assoc b!"Im" c.images = some y ∧
            (imagePillow (streamData x) (locate o.env fuel) fuel' y (asked o.env fuel [(8, 0), (3, 0), (8, 0)] o.st)).1 = .ok (.pixels b!"RGB" 1 2 [1, 2, 3, 4, 5, 6]) := by
  obtain ⟨F, hF⟩ := C106_written (fun _ => none) (fun _ => none) secure true how_hex (undoes_hex x) (.one b!"ASCIIHexDecode") (fun _ => .one _ ⟨_, rfl, .atom _ trivial⟩) (show _ ∉ _ by decide) twoBitmaps
    (by decide) (by decide +kernel) (by decide +kernel) (Or.inl rfl)
  refine ⟨F, fun fuel hf => ?_⟩
  obtain ⟨o, root, ho, F', hF'⟩ := hF fuel hf
  refine ⟨o, root, ho, F', fun fuel' hf' => ?_⟩
  obtain ⟨doc, w, h1, h2, is, w', h3, h4, h5⟩ := hF' fuel' hf'
  obtain ⟨i, c, y, c1, c2, c3, c4⟩ := h5 1 ⟨1, 2, [1, 2, 3, 4, 5, 6]⟩ rfl
  exact ⟨doc, w, h1, h2, is, w', h3, h4, i, c, y, c1, c2, c3 b!"Im", c4 _ (by decide +kernel)⟩

/-- The three hypotheses on colours are met: a mask whose Decode exchanges the colours, and an indexed image over a colour space with an ICC profile in another object. -/
def profileStore : Store := fun n g => if (n, g) = (9, 0) then some (.stream [(b!"N", .int 4)] []) else none

def maskEntries : List (Bytes × Obj) :=
  [(b!"Width", .int 8), (b!"Height", .int 1), (b!"ImageMask", .bool true), (b!"BitsPerComponent", .int 1), (b!"Decode", .arr [.int 1, .int 0])]

def profileEntries : List (Bytes × Obj) :=
  [(b!"Width", .int 2), (b!"Height", .int 1), (b!"BitsPerComponent", .int 8),
    (b!"ColorSpace", .arr [.name b!"Indexed", .arr [.name b!"ICCBased", .ref 9 0], .int 1, .hex b!"0001020304050607"])]

theorem mask_pictured (filtered : List (Bytes × Obj) → Bytes → Res Bytes) (h : filtered maskEntries [0xF1] = .ok [0xF1]) :
    Pictured profileStore filtered maskEntries [0xF1] (.pixels b!"1" 8 1 [0x0E]) :=
  .maskExchanged 8 1 .none [0xF1] ⟨⟨_, rfl, .atom _ trivial⟩, ⟨_, rfl, .atom _ trivial⟩⟩ (.absent (.inl rfl)) trivial ⟨_, rfl, .atom _ trivial⟩ ⟨_, rfl, .atom _ trivial⟩
    ⟨_, rfl, .cons _ _ _ _ (.atom _ trivial) (.cons _ _ _ _ (.atom _ trivial) .nil)⟩ h

theorem profile_pictured (filtered : List (Bytes × Obj) → Bytes → Res Bytes) (h : filtered profileEntries [1, 0] = .ok [1, 0]) :
    Pictured profileStore filtered profileEntries [1, 0] (.palette 2 1 [0, 1, 2, 3, 4, 5, 6, 7] b!"CMYK" [1, 0]) := by
  refine .indexed 2 1 .none b!"CMYK" [1, 0] [0, 1, 2, 3, 4, 5, 6, 7] 1 (.arr [.atom (.name b!"ICCBased"), .stream b!"StreamBasedObject" [(b!"N", .int 4)] []]) (.atom (.hex b!"0001020304050607"))
    ⟨⟨_, rfl, .atom _ trivial⟩, ⟨_, rfl, .atom _ trivial⟩⟩ (.absent (.inl rfl)) trivial (.inl (.inl rfl)) ⟨_, rfl, ?_⟩
    (.profile _ _ _ _ 4 ⟨_, rfl, .atom _ trivial⟩ (by decide)) (.string _ _ ?_) h
  · refine .cons _ _ _ _ (.atom _ trivial) (.cons _ _ _ _ ?_ (.cons _ _ _ _ (.atom _ trivial) (.cons _ _ _ _ (.atom _ trivial) .nil)))
    exact .cons _ _ _ _ (.atom _ trivial) (.cons _ _ _ _ (.ref 9 0 _ _ rfl (by intro n g h; cases h) (.stream _ _ _ (.plain rfl))) .nil)
  · exact .hex [0, 1, 2, 3, 4, 5, 6, 7]

/-- C85 is false for an image mask of a document whose BitsPerComponent, which is optional, is missing; with it the mask is handed over. -/
theorem C85_document_counterexample :
    (imagePillow (fun _ b => .ok b) (fun (n g : Nat) (s : Unit) => (.ok ((profileStore n g).getD .null), s)) 10
      (.stream b!"Image" [(b!"Width", .int 8), (b!"Height", .int 1), (b!"ImageMask", .bool true)] [0xF1]) ()).1 = .error .typeError ∧
    (imagePillow (fun _ b => .ok b) (fun (n g : Nat) (s : Unit) => (.ok ((profileStore n g).getD .null), s)) 10
      (.stream b!"Image" [(b!"Width", .int 8), (b!"Height", .int 1), (b!"ImageMask", .bool true), (b!"BitsPerComponent", .int 1)] [0xF1]) ()).1 =
        .ok (.pixels b!"1" 8 1 [0xF1]) := ⟨rfl, rfl⟩

end PdfReader
