/-
  C95: from the bytes of a file to the strings which the viewer shows.
-/
import Verif.Lemmas.View
import Verif.Props.Navigate
import Verif.Props.File
import Verif.Props.Compressed
import Verif.Props.Fonts

namespace PdfReader

open Spec

variable {filtered : List (Bytes × Obj) → Bytes → Res Bytes} {builtin : Builtin} {predefined : Bytes → Option CMap}

theorem shown_at {pgs : List PageInfo} {cs : List Canvas} (h : AllShown pgs cs) : pgs.length = cs.length ∧
    ∀ (n : Nat) c, cs[n]? = some c → ∃ pg, pgs[n]? = some pg ∧ Shown pg c := by
  induction h with
  | nil => exact ⟨rfl, fun n c e => by simp at e⟩
  | cons pg c pgs cs h1 _ ih =>
    refine ⟨by simp [ih.1], fun n c' e => ?_⟩
    cases n with
    | zero =>
      cases e
      exact ⟨pg, rfl, h1⟩
    | succ n => exact ih.2 n c' e

/-- C95, what one string means: whatever meaning `Spec/Text.lean` gives to a literal or hexadecimal string in a font, the decoder of this font
gives it too. -/
theorem C95_strings (builtin : Builtin) (predefined : Bytes → Option CMap) (fd : FontDict) (o : Obj) (t : Text) (h : Means builtin predefined fd o t) :
    fontText builtin predefined fd o = .ok t := means_text h

/-- `<0024 0062>` in a font with a ToUnicode CMap. -/
example : fontText (fun _ => none) (fun _ => none) ⟨some exText, some (.name b!"MacRomanEncoding"), none⟩ (.hex b!"00240062") = .ok [0x41, 0x66, 0x66] := by
  refine C95_strings _ _ _ _ _ (.toUnicode exText 9 exBlocks [0, 0x24, 0, 0x62] [(b!"0024", [0x41]), (b!"0062", [0x66, 0x66])] rfl exCMap exOk
    (.hex [0, 0x24, 0, 0x62]) ?_ (by decide))
  intro p hp
  simp only [List.mem_cons, List.not_mem_nil, or_false] at hp
  rcases hp with rfl | rfl
  · exact ⟨by unfold UpHex; decide, by decide +kernel, Or.inr (by decide +kernel)⟩
  · exact ⟨by unfold UpHex; decide, by decide +kernel, Or.inr (by decide +kernel)⟩

/-- `<4142>` in a font with differences: A is spelled `uni03B1`, B is as in WinAnsiEncoding. -/
example : fontText (fun _ => none) (fun _ => none) ⟨none, some (.dict [(b!"BaseEncoding", .name b!"WinAnsiEncoding"),
    (b!"Differences", .arr [.int 65, .name b!"uni03B1"])]), none⟩ (.hex b!"4142") = .ok [0x3B1, 66] := by
  refine C95_strings _ _ _ _ _ (.dict _ winAnsiChar [⟨65, [b!"uni03B1"]⟩] [65, 66] (fun b => if b = 65 then [0x3B1] else [b.toNat]) rfl rfl (by decide)
    (Or.inl ⟨b!"WinAnsiEncoding", by decide +kernel, rfl⟩) (Or.inl (by decide +kernel)) (.hex [65, 66]) ?_ ?_)
  · intro b hb n hn
    simp only [List.mem_cons, List.not_mem_nil, or_false] at hb
    rcases hb with rfl | rfl
    · cases hn
      exact .mk [(b!"uni03B1", [0x3B1])] [] (by decide) (fun p hp => by
        simp only [List.mem_cons, List.not_mem_nil, or_false] at hp
        subst hp
        exact ⟨by decide, by decide, .uni [b!"03B1"] (by unfold UpHex; decide)⟩) (Or.inl rfl)
    · rw [show diffName [⟨65, [b!"uni03B1"]⟩] (((66 : Byte).toNat : Nat) : Int) = none by decide +kernel] at hn
      cases hn
  · intro b hb hn
    simp only [List.mem_cons, List.not_mem_nil, or_false] at hb
    rcases hb with rfl | rfl
    · exact absurd hn (by decide +kernel)
    · exact ⟨by decide, by decide +kernel⟩

/-- The viewer on any document whose pages can all be rendered. -/
theorem view_shown {doc : DocPages} (hd : doc.fails = none) {cs : List Canvas} (hs : AllShown doc.pages cs) (hne : cs ≠ []) :
    ∃ v, openViewer doc = .ok v ∧
      (∃ is v', canvasAll doc (cs.length + 1) (false, v) = (is, none, v') ∧ is.map (v'.heap[·]?) = cs.map some) ∧
      ∀ w, Clean doc w → ∀ (n : Nat) c, cs[n]? = some c → ∃ w', Viewer.navigate doc (n + 1) w = (.ok (), w') ∧ ∃ u, w'.render = (.ok (), u) ∧ u.current = c := by
  obtain ⟨hl, ha⟩ := shown_at hs
  obtain ⟨c, hc⟩ : ∃ c, cs[0]? = some c := by
    cases cs with
    | nil => exact absurd rfl hne
    | cons c cs => exact ⟨c, rfl⟩
  obtain ⟨pg, hp, r, s, p, hr, e1, e2⟩ := ha 0 c hc
  obtain ⟨v, ho, hn, _⟩ := C49_opens doc pg ⟨0, rfl, hp⟩ r s hr
  refine ⟨v, ho, ?_, fun w hw n c hc => ?_⟩
  · obtain ⟨is, v', i1, i2, _⟩ := C81_iterates doc hd v (.opened v ho) 0 hn cs (by rw [List.drop_zero]; exact hs) (cs.length + 1) (Nat.lt_succ_self _)
    exact ⟨is, v', i1, i2⟩
  · obtain ⟨pg, hp, hsh⟩ := ha n c hc
    obtain ⟨r, s, p, hr, e1, e2⟩ := hsh
    obtain ⟨w', n1, n2, _⟩ := C49_reaches doc w (clean_reached hw) (n + 1) pg ⟨n, rfl, hp⟩ r s hr
    obtain ⟨u, u1, u2⟩ := C52_succeeds_partial doc w' (.called (.navigate (n + 1)) w w' hw n1) pg (by rw [n2]; exact ⟨n, rfl, hp⟩) c ⟨r, s, p, hr, e1, e2⟩
    exact ⟨w', n1, u, u1, u2⟩

/-- What the viewer shows of a document which opens. -/
theorem serves_shows (builtin : Builtin) (predefined : Bytes → Option CMap) {secure : Nat → Opened → Obj → Res Opened} {clamps : Bool} {file v : Bytes}
    {dict : List (Bytes × Obj)} {c : Option Bytes} {catalog : List (Bytes × Obj)} {content : Spec.Content} (h : Serves filtered secure clamps file v dict c catalog content)
    (n g : Nat) (node : List (Bytes × Obj)) (ps : List (List (Bytes × Obj))) (hpages : dictGet catalog b!"Pages" = some (.ref n g))
    (hnode : content n g = some (.dict node)) (htype : dictGet node b!"Type" = some (.name b!"Pages")) (htree : PageTree content n g ps)
    (tss : List (List Text)) (hshow : PagesShow content filtered builtin predefined ps tss) (hne : ps ≠ []) :
    ∃ F, ∀ fuel, F ≤ fuel → ∃ F', ∀ fuel', F' ≤ fuel' → ∃ doc w,
      viewFile filtered builtin predefined (secure fuel) clamps fuel fuel' file = .ok doc ∧ openViewer doc = .ok w ∧
      (∃ is w', canvasAll doc (ps.length + 1) (false, w) = (is, none, w') ∧ is.map (fun i => (w'.heap[i]?).map (·.strings)) = tss.map some) ∧
      ∀ w, Clean doc w → ∀ (n : Nat) ts, tss[n]? = some ts → ∃ w', Viewer.navigate doc (n + 1) w = (.ok (), w') ∧
        ∃ u, w'.render = (.ok (), u) ∧ u.current.strings = ts := by
  obtain ⟨F, hF⟩ := h
  refine ⟨F, fun fuel hf => ?_⟩
  obtain ⟨doc, e, _, _, I, hI, hd⟩ := hF fuel hf
  obtain ⟨F1, hF1⟩ := C46_order (hd fuel hf) c catalog n g ps hpages htree (fun es h => by
    rw [hnode] at h
    cases h
    exact htype)
  obtain ⟨F2, hF2⟩ := pages_soon (hd fuel hf) hshow
  refine ⟨F1 + F2, fun fuel' hf' => ?_⟩
  obtain ⟨s', hs', e'⟩ := hF1 fuel' (by omega) doc.st hI
  obtain ⟨cs, hall, hstr⟩ := hF2 fuel' (by omega) s' hs'
  have hv : viewFile filtered builtin predefined (secure fuel) clamps fuel fuel' file =
      .ok { pages := (ps.map asPage).map (pageInfo filtered builtin predefined (locate doc.env fuel) fuel' s'), fails := none } := by
    unfold viewFile
    rw [e]
    dsimp only
    unfold viewDoc
    rw [e']
  have hlen : ps.length = cs.length := by
    have := (shown_at hall).1
    simpa using this
  have hcne : cs ≠ [] := by
    intro h
    rw [h] at hlen
    exact hne (List.length_eq_zero_iff.mp hlen)
  obtain ⟨w, h1, ⟨is, w', h2, h3⟩, h4⟩ := view_shown (doc := { pages := (ps.map asPage).map (pageInfo filtered builtin predefined (locate doc.env fuel) fuel' s'), fails := none }) rfl hall hcne
  refine ⟨_, w, hv, h1, ⟨is, w', by rw [hlen]; exact h2, ?_⟩, fun w hw n ts hts => ?_⟩
  · have := congrArg (List.map (Option.map Canvas.strings)) h3
    rw [List.map_map, List.map_map] at this
    rw [← hstr, List.map_map]
    exact this
  · rw [← hstr, List.getElem?_map] at hts
    cases hcs : cs[n]? with
    | none => rw [hcs] at hts; cases hts
    | some c =>
      rw [hcs] at hts
      cases hts
      obtain ⟨w', n1, u, u1, u2⟩ := h4 w hw n c hcs
      exact ⟨w', n1, u, u1, by rw [u2]⟩

/-- C95: a file whose page tree has pages with readable content opens in the viewer; iterating over the viewer gives, page by page and in the
order of the page tree, the strings which the content of the page shows; and after any calls which returned, going to a page by its number and
rendering it gives the strings of this page. -/
theorem C95_shows (builtin : Builtin) (predefined : Bytes → Option CMap) (secure : Opened → Obj → Res Opened) (clamps : Bool) (file v : Bytes) (k off : Nat)
    (r : Revision) (rs : List Revision) (content : Spec.Content) (hh : HeaderAt file v k) (hs : StartsAt file off) (hb : clamps = true ∨ 1024 ≤ file.length)
    (hsec : SectionsFrom (fun d raw data => filtered d raw = .ok data) file off (r :: rs))
    (hc : Holds (fun d raw data => filtered d raw = .ok data) AsIs file k (r :: rs) content) (henc : NoEntry r.dict b!"Encrypt")
    (a b : Nat) (catalog : List (Bytes × Obj)) (c : Option Bytes) (hroot : dictGet r.dict b!"Root" = some (.ref a b))
    (hcat : content a b = some (.dict catalog)) (hcls : DictKind catalog c)
    (n g : Nat) (node : List (Bytes × Obj)) (ps : List (List (Bytes × Obj))) (hpages : dictGet catalog b!"Pages" = some (.ref n g))
    (hnode : content n g = some (.dict node)) (htype : dictGet node b!"Type" = some (.name b!"Pages")) (htree : PageTree content n g ps)
    (tss : List (List Text)) (hshow : PagesShow content filtered builtin predefined ps tss) (hne : ps ≠ []) :
    ∃ F, ∀ fuel, F ≤ fuel → ∃ F', ∀ fuel', F' ≤ fuel' → ∃ doc w,
      viewFile filtered builtin predefined secure clamps fuel fuel' file = .ok doc ∧ openViewer doc = .ok w ∧
      (∃ is w', canvasAll doc (ps.length + 1) (false, w) = (is, none, w') ∧ is.map (fun i => (w'.heap[i]?).map (·.strings)) = tss.map some) ∧
      ∀ w, Clean doc w → ∀ (n : Nat) ts, tss[n]? = some ts → ∃ w', Viewer.navigate doc (n + 1) w = (.ok (), w') ∧
        ∃ u, w'.render = (.ok (), u) ∧ u.current.strings = ts := by
  exact serves_shows builtin predefined (openDocument_opens secure clamps file v k off r rs content hh hs hb hsec hc henc a b catalog c hroot hcat hcls) n g node ps hpages
    hnode htype htree tss hshow hne

/-- C95, for what was written with cross-reference tables, in any number of revisions. -/
theorem C95_written (builtin : Builtin) (predefined : Bytes → Option CMap) (secure : Opened → Obj → Res Opened) (clamps : Bool) (older : List Draft)
    (last : Draft) (hok : ∀ d ∈ older ++ [last], d.Ok) (hsmall : (writeFile (older ++ [last])).length < 10 ^ 10)
    (hb : clamps = true ∨ 1024 ≤ (writeFile (older ++ [last])).length) (henc : NoEntry last.trailer b!"Encrypt")
    (a b : Nat) (catalog : List (Bytes × Obj)) (c : Option Bytes) (hroot : dictGet last.trailer b!"Root" = some (.ref a b))
    (hcat : contentOf (older ++ [last]) a b = some (.dict catalog)) (hcls : DictKind catalog c)
    (n g : Nat) (node : List (Bytes × Obj)) (ps : List (List (Bytes × Obj))) (hpages : dictGet catalog b!"Pages" = some (.ref n g))
    (hnode : contentOf (older ++ [last]) n g = some (.dict node)) (htype : dictGet node b!"Type" = some (.name b!"Pages"))
    (htree : PageTree (contentOf (older ++ [last])) n g ps)
    (tss : List (List Text)) (hshow : PagesShow (contentOf (older ++ [last])) filtered builtin predefined ps tss) (hne : ps ≠ []) :
    ∃ F, ∀ fuel, F ≤ fuel → ∃ F', ∀ fuel', F' ≤ fuel' → ∃ doc w,
      viewFile filtered builtin predefined secure clamps fuel fuel' (writeFile (older ++ [last])) = .ok doc ∧ openViewer doc = .ok w ∧
      (∃ is w', canvasAll doc (ps.length + 1) (false, w) = (is, none, w') ∧ is.map (fun i => (w'.heap[i]?).map (·.strings)) = tss.map some) ∧
      ∀ w, Clean doc w → ∀ (n : Nat) ts, tss[n]? = some ts → ∃ w', Viewer.navigate doc (n + 1) w = (.ok (), w') ∧
        ∃ u, w'.render = (.ok (), u) ∧ u.current.strings = ts := by
  have hd : older ++ [last] ≠ [] := by simp
  have hsec := sections_of _ hd hok hsmall (fun d raw data => filtered d raw = .ok data)
  have hc := holds_of (decoded := fun d raw data => filtered d raw = .ok data) _ hok
  obtain ⟨r, rs, e, prev, hdict⟩ := revs_cons older last fileHeader.length none
  rw [e] at hsec hc
  refine C95_shows builtin predefined secure clamps _ _ 0 _ r rs _ (header_at _ hd) (starts_at _ hd) hb hsec hc ?_ a b catalog c ?_ hcat hcls n g node ps hpages hnode htype
    htree tss hshow hne
  · unfold NoEntry
    rw [hdict, dict_other _ _ _ (by decide)]
    exact henc
  · rw [hdict, dict_other _ _ _ (by decide)]
    exact hroot

/-- C95, for what was written with an object stream and a cross-reference stream. -/
theorem C95_compressed (builtin : Builtin) (predefined : Bytes → Option CMap) (secure : Opened → Obj → Res Opened) (clamps : Bool) (c : Compressed) (hc : c.Ok)
    (hundo : Undoes filtered c.how c.encode) (hb : clamps = true ∨ 1024 ≤ c.write.length) (henc : b!"Encrypt" ∉ c.trailer.map (·.1))
    (a b : Nat) (catalog : List (Bytes × Obj)) (k : Option Bytes) (hroot : dictGet c.trailer b!"Root" = some (.ref a b))
    (hcat : c.content a b = some (.dict catalog)) (hcls : DictKind catalog k)
    (n g : Nat) (node : List (Bytes × Obj)) (ps : List (List (Bytes × Obj))) (hpages : dictGet catalog b!"Pages" = some (.ref n g))
    (hnode : c.content n g = some (.dict node)) (htype : dictGet node b!"Type" = some (.name b!"Pages")) (htree : PageTree c.content n g ps)
    (tss : List (List Text)) (hshow : PagesShow c.content filtered builtin predefined ps tss) (hne : ps ≠ []) :
    ∃ F, ∀ fuel, F ≤ fuel → ∃ F', ∀ fuel', F' ≤ fuel' → ∃ doc w,
      viewFile filtered builtin predefined secure clamps fuel fuel' c.write = .ok doc ∧ openViewer doc = .ok w ∧
      (∃ is w', canvasAll doc (ps.length + 1) (false, w) = (is, none, w') ∧ is.map (fun i => (w'.heap[i]?).map (·.strings)) = tss.map some) ∧
      ∀ w, Clean doc w → ∀ (n : Nat) ts, tss[n]? = some ts → ∃ w', Viewer.navigate doc (n + 1) w = (.ok (), w') ∧
        ∃ u, w'.render = (.ok (), u) ∧ u.current.strings = ts := by
  have hsec := sections_compressed (decoded := fun d raw data => filtered d raw = .ok data) hc hundo
  have hh := holds_compressed (decoded := fun d raw data => filtered d raw = .ok data) hc hundo (fun d raw a b h1 h2 => by rw [h1] at h2; cases h2; rfl)
  refine C95_shows builtin predefined secure clamps _ _ 0 _ (revC c) [] _ (header_compressed c) (starts_compressed c) hb hsec hh ?_ a b catalog k (xref_trailer hc hroot) hcat hcls
    n g node ps hpages hnode htype htree tss hshow hne
  left
  show dictGet c.xrefDict _ = none
  unfold Compressed.xrefDict
  rw [dictGet_append, dictGet_notKey _ _ (by simp), dictGet_append, how_other hc (by simp) (by simp)]
  exact dictGet_notKey _ _ henc

end PdfReader
