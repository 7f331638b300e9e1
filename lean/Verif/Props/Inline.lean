/-
  C126–C128: inline images.
-/
import Verif.Model.InlineImage
import Verif.Spec.Inline
import Verif.Props.Image
import Verif.Props.Parts

namespace PdfReader

open Spec

/-! ### C126: attributes -/

theorem attr_pair {key short : Bytes} (h : (key, short) ∈ inlineAbbreviations) (d : List (Bytes × Obj)) : inlineAttr d key = imageEntry d key short := by
  simp only [inlineAbbreviations, List.mem_cons, List.not_mem_nil, or_false, Prod.mk.injEq] at h
  rcases h with ⟨rfl, rfl⟩ | ⟨rfl, rfl⟩ | ⟨rfl, rfl⟩ | ⟨rfl, rfl⟩ | ⟨rfl, rfl⟩ | ⟨rfl, rfl⟩ | ⟨rfl, rfl⟩ | ⟨rfl, rfl⟩ | ⟨rfl, rfl⟩ <;> rfl

/-- An attribute of an inline image is what its dictionary gives under the name or the abbreviation; false values, under the name, are excepted. -/
theorem C126_attribute_partial (d : List (Bytes × Obj)) (key : Bytes) (v : Obj) (h : InlineEntry d key v) (hv : truthy v = true ∨ dictGet d key = none) : inlineAttr d key = v := by
  obtain ⟨short, hk, ⟨h1, h2⟩ | ⟨h1, h2⟩⟩ := h
  · rw [attr_pair hk]
    unfold imageEntry
    rw [h1]
    rcases hv with hv | hv
    · dsimp only
      rw [if_pos hv]
    · rw [h1] at hv
      cases hv
  · rw [attr_pair hk]
    unfold imageEntry
    rw [h1, h2]
    rfl

/-- A missing attribute is None; Intent has no abbreviation. -/
theorem C126_missing (d : List (Bytes × Obj)) : (∀ key, NoInlineEntry d key → inlineAttr d key = .null) ∧ inlineAttr d b!"Intent" = (dictGet d b!"Intent").getD .null := by
  refine ⟨?_, rfl⟩
  rintro key ⟨short, hk, h1, h2⟩
  rw [attr_pair hk]
  unfold imageEntry
  rw [h1, h2]
  rfl

/-- False and 0 under the name are taken for missing: `/ImageMask false` reads as None, `/IM false` as false. -/
theorem C126_false_counterexample : InlineEntry [(b!"ImageMask", .bool false)] b!"ImageMask" (.bool false) ∧ inlineAttr [(b!"ImageMask", .bool false)] b!"ImageMask" = .null ∧
    inlineAttr [(b!"IM", .bool false)] b!"ImageMask" = .bool false ∧ InlineEntry [(b!"Height", .int 0)] b!"Height" (.int 0) ∧ inlineAttr [(b!"Height", .int 0)] b!"Height" = .null :=
  ⟨⟨b!"IM", by decide, .inl ⟨by decide, by decide⟩⟩, by decide, by decide, ⟨b!"H", by decide, .inl ⟨by decide, by decide⟩⟩, by decide⟩

/-- A false value reads as a false value or None in any case. -/
theorem attr_false (d : List (Bytes × Obj)) (key : Bytes) (v : Obj) (h : InlineEntry d key v) (hv : truthy v = false) : truthy (inlineAttr d key) = false := by
  obtain ⟨short, hk, ⟨h1, h2⟩ | ⟨h1, h2⟩⟩ := h
  · rw [attr_pair hk]
    unfold imageEntry
    rw [h1, h2]
    dsimp only
    rw [hv]
    rfl
  · rw [attr_pair hk]
    unfold imageEntry
    rw [h1, h2]
    exact hv

/-! ### C127: data -/

theorem filters_entry {d : List (Bytes × Obj)} {ns : List Bytes} (h : InlineFilters d ns) :
    (ns = [] ∧ inlineAttr d b!"Filter" = .null) ∨ (∃ n, ns = [n] ∧ n ≠ [] ∧ inlineAttr d b!"Filter" = .name n) ∨ (ns ≠ [] ∧ inlineAttr d b!"Filter" = .arr (ns.map .name)) := by
  cases h with
  | none h => exact .inl ⟨rfl, (C126_missing d).1 _ h⟩
  | one n hn h =>
    refine .inr (.inl ⟨n, rfl, hn, C126_attribute_partial d _ _ h (.inl ?_)⟩)
    cases n with
    | nil => exact absurd rfl hn
    | cons => rfl
  | many n ns h => exact .inr (.inr ⟨by simp, C126_attribute_partial d _ _ h (.inl rfl)⟩)

theorem names_map : ∀ ns : List Bytes, namesOf (ns.map .name) = some ns
  | [] => rfl
  | n :: ns => by
    rw [List.map_cons]
    unfold namesOf
    rw [names_map ns]
    rfl

theorem filters_apply {d : List (Bytes × Obj)} {ns : List Bytes} (h : InlineFilters d ns) (x : Ext) (data : Bytes) (ps : Params) :
    applyFilterMulti x (filterEntry (some (inlineAttr d b!"Filter"))) data ps = applyFilters x ps ns data := by
  rcases filters_entry h with ⟨rfl, e⟩ | ⟨n, rfl, hn, e⟩ | ⟨hn, e⟩
  · rw [e]; rfl
  · rw [e]
    unfold filterEntry
    dsimp only
    rw [if_neg hn]
    rfl
  · rw [e]
    unfold filterEntry
    dsimp only
    rw [names_map]
    cases ns with
    | nil => exact absurd rfl hn
    | cons n ns => rfl

/-- What the parameters of the image give: without an entry, or with a false one, no parameters. -/
theorem parms_entry {d : List (Bytes × Obj)} {p : Option Obj} (h : InlineParms d p) :
    paramsEntry (some (inlineAttr d b!"DecodeParms")) = paramsEntry p ∧ ∀ b, ccittFilter (some (inlineAttr d b!"DecodeParms")) b = ccittFilter p b := by
  cases h with
  | none h => rw [(C126_missing d).1 _ h]; exact ⟨rfl, fun _ => rfl⟩
  | some p h =>
    cases hp : truthy p with
    | true => rw [C126_attribute_partial d _ _ h (.inl hp)]; exact ⟨rfl, fun _ => rfl⟩
    | false =>
      have key : ∀ o : Obj, truthy o = false → paramsEntry (some o) = .dict none none ∧ ∀ b, ccittFilter (some o) b = ccittFilter none b := by
        intro o ho
        cases o with
        | dict es =>
          cases es with
          | nil => exact ⟨rfl, fun _ => rfl⟩
          | cons e es => cases ho
        | _ =>
          refine ⟨?_, fun b => ?_⟩
          · unfold paramsEntry
            dsimp only
            rw [ho]
            rfl
          · unfold ccittFilter
            dsimp only
            rw [ho]
            rfl
      have h1 := key _ (attr_false d _ _ h hp)
      have h2 := key _ hp
      exact ⟨h1.1.trans h2.1.symm, fun b => (h1.2 b).trans (h2.2 b).symm⟩

theorem applyFilter_full {full short : Bytes} (h : (full, short) ∈ filterAbbreviations) (x : Ext) (data : Bytes) (ps : Params) :
    applyFilter x short data ps = applyFilter x full data ps := by
  simp only [filterAbbreviations, List.mem_cons, List.not_mem_nil, or_false, Prod.mk.injEq] at h
  rcases h with ⟨rfl, rfl⟩ | ⟨rfl, rfl⟩ | ⟨rfl, rfl⟩ | ⟨rfl, rfl⟩ | ⟨rfl, rfl⟩ | ⟨rfl, rfl⟩ | ⟨rfl, rfl⟩ <;> rfl

theorem applyFilters_full {ns ms : List Bytes} (h : FullNames ns ms) (x : Ext) (ps : Params) : ∀ data, applyFilters x ps ns data = applyFilters x ps ms data := by
  induction h with
  | nil => exact fun _ => rfl
  | short full short ns ms hs _ ih =>
    intro data
    unfold applyFilters
    rw [applyFilter_full hs]
    cases applyFilter x full data ps with
    | error e => rfl
    | ok b => exact ih b
  | same n ns ms _ _ ih =>
    intro data
    unfold applyFilters
    cases applyFilter x n data ps with
    | error e => rfl
    | ok b => exact ih b

/-- The data of an inline image, however its keys and the names of its filters are abbreviated, are decoded (or fail) as those of a stream in the file which has the full
names of the filters and the same parameters. -/
theorem C127_as_stream (inflate : Bytes → Option Bytes) (d : List (Bytes × Obj)) (data : Bytes) (ns ms : List Bytes) (p : Option Obj) (hf : InlineFilters d ns) (hn : FullNames ns ms)
    (hp : InlineParms d p) (sd : List (Bytes × Obj)) (h1 : dictGet sd b!"Filter" = some (.arr (ms.map .name))) (h2 : dictGet sd b!"DecodeParms" = p) :
    inlineFiltered inflate d data = fileData inflate sd data := by
  obtain ⟨p1, p2⟩ := parms_entry hp
  unfold inlineFiltered fileData streamData
  rw [filters_apply hf, p1, funext p2, h1, h2, applyFilters_full hn]
  unfold filterEntry
  dsimp only
  rw [names_map]
  cases ms <;> rfl

/-- Without filters they are what is in the content. -/
theorem C127_plain (inflate : Bytes → Option Bytes) (d : List (Bytes × Obj)) (data : Bytes) (hf : InlineFilters d []) : inlineFiltered inflate d data = .ok data := by
  unfold inlineFiltered
  rw [filters_apply hf]
  rfl

/-- Hexadecimal digits of run lengths: `/F [/AHx /RL]`. -/
example : inlineFiltered (fun _ => none) [(b!"F", .arr [.name b!"AHx", .name b!"RL"])] b!"FD41 80>" = .ok b!"AAAA" ∧
    InlineFilters [(b!"F", .arr [.name b!"AHx", .name b!"RL"])] [b!"AHx", b!"RL"] ∧ FullNames [b!"AHx", b!"RL"] [b!"ASCIIHexDecode", b!"RunLengthDecode"] :=
  ⟨by decide +kernel, .many _ _ ⟨b!"F", by decide, .inr ⟨by decide, rfl⟩⟩, .short _ _ _ _ (by decide) (.short _ _ _ _ (by decide) .nil)⟩

/-! ### C128: to_Pillow -/

theorem nameVals_map : ∀ ns : List Bytes, nameVals ((ns.map Obj.name).map fun x => .atom x) = .ok ns
  | [] => rfl
  | n :: ns => by
    rw [List.map_cons, List.map_cons]
    unfold nameVals
    rw [nameVals_map ns]
    rfl

theorem inline_filter {d : List (Bytes × Obj)} {ns : List Bytes} (h : InlineFilters d ns) : ∃ f, filterVal (plainVal (inlineAttr d b!"Filter")) = .ok f ∧ lastFilter f = .ok ns.getLast? ∧
    (InlinePlain ns → PlainFilter f) ∧ (ns.getLast? = some b!"CCITTFaxDecode" → FaxFilter f) := by
  rcases filters_entry h with ⟨rfl, e⟩ | ⟨n, rfl, hn, e⟩ | ⟨hn, e⟩
  · rw [e]
    exact ⟨.none, rfl, rfl, fun _ => trivial, fun h => by cases h⟩
  · rw [e]
    refine ⟨.one n, rfl, rfl, fun hp => ?_, fun h => by injection h⟩
    have := hp n rfl
    show n ∉ [b!"DCTDecode", b!"JPXDecode", b!"CCITTFaxDecode"]
    simp only [List.mem_cons, List.not_mem_nil, or_false, not_or] at this ⊢
    exact ⟨this.1, this.2.2.1, this.2.2.2.1⟩
  · rw [e]
    obtain ⟨n, hl⟩ : ∃ n, ns.getLast? = some n := ⟨_, List.getLast?_eq_some_getLast hn⟩
    refine ⟨.many ns, ?_, ?_, fun hp => ⟨n, hl, ?_⟩, fun h => h⟩
    · show (nameVals ((ns.map Obj.name).map fun x => .atom x)).map ImgFilter.many = .ok (.many ns)
      rw [nameVals_map]
      rfl
    · unfold lastFilter
      dsimp only
      rw [hl]
    · have := hp n hl
      simp only [List.mem_cons, List.not_mem_nil, or_false, not_or] at this ⊢
      exact ⟨this.1, this.2.2.1, this.2.2.2.1⟩

theorem inline_pos {d : List (Bytes × Obj)} {key : Bytes} {n : Nat} (hn : 0 < n) (h : InlineEntry d key (.int n)) : natVal (plainVal (inlineAttr d key)) = .ok n := by
  rw [C126_attribute_partial d key _ h (.inl (by
    cases n with
    | zero => omega
    | succ n => rfl))]
  show (if (0 : Int) ≤ n then Except.ok (Int.toNat n) else .error .valueError) = .ok n
  rw [if_pos (by omega), Int.toNat_natCast]

theorem inline_noMask {d : List (Bytes × Obj)} (h : NoInlineMask d) : truthy (inlineAttr d b!"ImageMask") = false := by
  rcases h with h | h
  · rw [(C126_missing d).1 _ h]; rfl
  · exact attr_false d _ _ h rfl

/-- What to_Pillow reads of an image in a colour space. -/
theorem inline_attrs (inflate : Bytes → Option Bytes) {d : List (Bytes × Obj)} {w h : Nat} {ns : List Bytes} (hs : InlineSize d w h) (hf : InlineFilters d ns) (hp : InlinePlain ns)
    (hm : NoInlineMask d) {c : ColorSpace} (hc : inlineSpace (inlineAttr d b!"ColorSpace") = .ok c) (data : Bytes) :
    ∃ f, PlainFilter f ∧ inlineAttrs inflate d data =
      .ok { inline := true, width := w, height := h, filter := f, space := c, raw := data, filtered := inlineFiltered inflate d data } := by
  obtain ⟨f, e1, e2, e3, _⟩ := inline_filter hf
  refine ⟨f, e3 hp, ?_⟩
  obtain ⟨n, e, h1, h2⟩ := plain_filter f (e3 hp)
  unfold inlineAttrs
  rw [inline_pos hs.1 hs.2.2.1, inline_pos hs.2.1 hs.2.2.2, e1]
  dsimp only [Except.bind]
  rw [e]
  dsimp only
  rw [if_neg h1, if_neg (by rintro (h | h); exact h2 h; rw [inline_noMask hm] at h; cases h), hc]

/-- What to_Pillow reads of an image of two colours. -/
theorem inline_bits (inflate : Bytes → Option Bytes) {d : List (Bytes × Obj)} {w h : Nat} {ns : List Bytes} (hs : InlineSize d w h) (hf : InlineFilters d ns)
    (hk : (InlinePlain ns ∧ InlineEntry d b!"ImageMask" (.bool true)) ∨ ns.getLast? = some b!"CCITTFaxDecode")
    (hb : InlineEntry d b!"BitsPerComponent" (.int 1)) {dec : Option (List Nat)} (hd : decodeVal (plainVal (inlineAttr d b!"Decode")) = .ok dec) (data : Bytes) :
    ∃ f m, (FaxFilter f ∨ (m = true ∧ PlainFilter f)) ∧ inlineAttrs inflate d data =
      .ok { inline := true, width := w, height := h, filter := f, mask := m, bits := some 1, decode := dec, raw := data, filtered := inlineFiltered inflate d data } := by
  obtain ⟨f, e1, e2, e3, e4⟩ := inline_filter hf
  have hb' : bitsVal (plainVal (inlineAttr d b!"BitsPerComponent")) = .ok (some 1) := by
    rw [C126_attribute_partial d _ _ hb (.inl rfl)]
    rfl
  refine ⟨f, truthy (inlineAttr d b!"ImageMask"), ?_, ?_⟩
  · rcases hk with ⟨hp, hm⟩ | hk
    · exact .inr ⟨by rw [C126_attribute_partial d _ _ hm (.inl rfl)]; rfl, e3 hp⟩
    · exact .inl (e4 hk)
  · unfold inlineAttrs
    rw [inline_pos hs.1 hs.2.2.1, inline_pos hs.2.1 hs.2.2.2, e1]
    dsimp only [Except.bind]
    rcases hk with ⟨hp, hm⟩ | hk
    · obtain ⟨n, e, h1, h2⟩ := plain_filter f (e3 hp)
      rw [e]
      dsimp only
      rw [if_neg h1, if_pos (.inr (by rw [C126_attribute_partial d _ _ hm (.inl rfl)]; rfl)), hb']
      dsimp only
      rw [hd]
    · rw [e2, hk]
      dsimp only
      rw [if_neg (by decide), if_pos (.inl rfl), hb']
      dsimp only
      rw [hd]

theorem inline_decode {d : List (Bytes × Obj)} (h : NoInlineEntry d b!"Decode" ∨ InlineEntry d b!"Decode" (.arr [.int 0, .int 1])) :
    ∃ dec, decodeVal (plainVal (inlineAttr d b!"Decode")) = .ok dec ∧ (dec = none ∨ dec = some [0, 1]) := by
  rcases h with h | h
  · rw [(C126_missing d).1 _ h]; exact ⟨none, rfl, .inl rfl⟩
  · rw [C126_attribute_partial d _ _ h (.inl rfl)]; exact ⟨some [0, 1], rfl, .inr rfl⟩

/-- An inline image becomes the Pillow image of its samples. Missing: DeviceGray, the abbreviations I, DCT and CCF, photographs. -/
theorem C128_pillow_partial (inflate : Bytes → Option Bytes) (d : List (Bytes × Obj)) (data : Bytes) (pil : Pil) (h : InlinePictured (inlineFiltered inflate) d data pil) :
    inlinePillow inflate (.image d data) = .ok pil := by
  unfold inlinePillow
  dsimp only
  cases h with
  | device w h ns n mode samples k hs hf hp hm hb hc hn hg hd hl =>
    have hne : n ≠ [] := by
      rintro rfl
      revert hn
      simp [deviceSpaces]
    have hsp : inlineSpace (inlineAttr d b!"ColorSpace") = .ok (.name n) := by
      rw [C126_attribute_partial d _ _ hc (.inl (by cases n with | nil => exact absurd rfl hne | cons => rfl))]
      rfl
    obtain ⟨f, h1, e⟩ := inline_attrs inflate hs hf hp hm hsp data
    rw [e]
    refine C84_unchanged_partial _ n mode samples k hn hg h1 rfl rfl hd ?_
    show samples.length = fullSize w h k 8
    unfold fullSize
    rw [hl, show (w * k * 8 + 7) / 8 = w * k by omega, Nat.mul_comm w h, Nat.mul_assoc]
  | indexed w h ns n mode samples table k hival lookup hs hf hp hm hb hc ht hn hg hd =>
    obtain ⟨item, hi, hs'⟩ : ∃ item, TableOf item table ∧ inlineSpace (inlineAttr d b!"ColorSpace") = .ok (.arr [.name b!"Indexed", .name n, .int hival, item]) := by
      rw [C126_attribute_partial d _ _ hc (.inl rfl)]
      cases ht with
      | str => exact ⟨_, .str _, rfl⟩
      | hex s t hh => exact ⟨.hex (.ok table), .hex _, by rw [← hh]; rfl⟩
    obtain ⟨f, h1, e⟩ := inline_attrs inflate hs hf hp hm hs' data
    rw [e]
    exact C84_indexed_partial _ n mode samples table k (.int hival) item hn hg h1 rfl hi rfl hd
  | mask w h ns bits hs hf hp hm hb hdec hd =>
    obtain ⟨dec, hd', hdec'⟩ := inline_decode hdec
    obtain ⟨f, m, h1, e⟩ := inline_bits inflate hs hf (.inl ⟨hp, hm⟩) hb hd' data
    rw [e]
    exact C85_bilevel_partial _ h1 bits hd rfl hdec'
  | inverted w h ns bits hs hf hp hm hb hdec hd =>
    obtain ⟨f, m, h1, e⟩ := inline_bits inflate hs hf (.inl ⟨hp, hm⟩) hb (dec := some [1, 0]) (by rw [C126_attribute_partial d _ _ hdec (.inl rfl)]; rfl) data
    rw [e]
    exact C85_inverted_partial _ h1 bits hd rfl rfl
  | fax w h ns bits hs hf hk hb hdec hd =>
    obtain ⟨dec, hd', hdec'⟩ := inline_decode hdec
    obtain ⟨f, m, h1, e⟩ := inline_bits inflate hs hf (.inr hk) hb hd' data
    rw [e]
    exact C85_bilevel_partial _ h1 bits hd rfl hdec'

/-- After any calls which returned, moving to a page and rendering it puts the inline images of its content on the canvas, in order, and `to_Pillow` of each of them, if it is
one of those, gives its samples. -/
theorem C128_page_partial (doc : DocPages) (v : Viewer) (hv : Clean doc v) (n : Int) (pg : PageInfo) (hp : PageIs doc n pg) (r : Resources) (t : Bytes) (hr : PageReads pg r t) (hn : Named r)
    (cs : List Content) (ht : ContentText [] cs t) (ts : List Text) (fs' : List (Option Bytes))
    (hs : Shows (decoding pg.host.decode r) (PlainDo pg.host r) (PlainGs pg.host r) [none] cs fs' ts) (inflate : Bytes → Option Bytes) :
    ∃ w u, Viewer.navigate doc n v = (.ok (), w) ∧ w.render = (.ok (), u) ∧ u.current.inline = imagesOf cs ∧
      ∀ d data pil, .image d data ∈ cs → InlinePictured (inlineFiltered inflate) d data pil →
        .image d data ∈ u.current.inline ∧ inlinePillow inflate (.image d data) = .ok pil := by
  obtain ⟨w, e, hnum, _⟩ := C49_reaches doc v (clean_reached hv) n pg hp r _ hr
  obtain ⟨p, e1, e2, e3⟩ := C53_strings_partial pg.host r hn _ cs (C23_commands cs t ht) ts fs' hs
  have hw : Clean doc w := .called (.navigate n) v w hv e
  obtain ⟨u, e4, e5⟩ := C52_succeeds_partial doc w hw pg (by rw [hnum]; exact hp) p.canvas ⟨r, _, p, hr, e1, rfl⟩
  refine ⟨w, u, e, e4, by rw [e5]; exact e3, fun d data pil hm hi => ⟨?_, C128_pillow_partial inflate d data pil hi⟩⟩
  rw [e5, e3]
  exact List.mem_filter.mpr ⟨hm, rfl⟩

/-- Two pixels, in a page with a string before them. -/
def smallImage : List (Bytes × Obj) := [(b!"W", .int 2), (b!"H", .int 1), (b!"BPC", .int 8), (b!"CS", .name b!"RGB"), (b!"F", .name b!"AHx")]

theorem small_entry (key short : Bytes) (v : Obj) (h : (key, short) ∈ inlineAbbreviations) (h1 : dictGet smallImage key = none) (h2 : dictGet smallImage short = some v) :
    InlineEntry smallImage key v := ⟨short, h, .inr ⟨h1, h2⟩⟩

theorem small_pictured : InlinePictured (inlineFiltered fun _ => none) smallImage b!"FF0000 0000FF>" (.pixels b!"RGB" 2 1 [255, 0, 0, 0, 0, 255]) :=
  .device 2 1 [b!"AHx"] b!"RGB" b!"RGB" [255, 0, 0, 0, 0, 255] 3
    ⟨by decide, by decide, small_entry _ b!"W" _ (by decide) (by decide) rfl, small_entry _ b!"H" _ (by decide) (by decide) rfl⟩
    (.one _ (by decide) (small_entry _ b!"F" _ (by decide) (by decide) rfl)) (by
      intro n h
      injection h with h
      subst h
      decide)
    (.inl ⟨b!"IM", by decide, by decide, by decide⟩) (small_entry _ b!"BPC" _ (by decide) (by decide) rfl) (small_entry _ b!"CS" _ (by decide) (by decide) rfl) (by decide) (by decide)
    (by decide +kernel) (by decide)

theorem small_content : contentObjects b!"q BI /W 2 /H 1 /BPC 8 /CS /RGB /F /AHx ID FF0000 0000FF>\nEI Q" = ([.op b!"q" [], .image smallImage b!"FF0000 0000FF>", .op b!"Q" []], none) := by
  decide +kernel

/-- Photographs are not converted: an inline image has no attribute `stream`. -/
theorem C128_photo_counterexample (inflate : Bytes → Option Bytes) (d : List (Bytes × Obj)) (data : Bytes) (w h : Nat) (hs : InlineSize d w h) (ns : List Bytes) (hf : InlineFilters d ns)
    (hl : ns.getLast? = some b!"DCTDecode" ∨ ns.getLast? = some b!"JPXDecode") : inlinePillow inflate (.image d data) = .error .attributeError := by
  obtain ⟨f, e1, e2, _, _⟩ := inline_filter hf
  have hl' : ns.getLast? = some b!"DCTDecode" ∨ ns.getLast? = some b!"JPXDecode" := hl
  unfold inlinePillow inlineAttrs
  dsimp only
  rw [inline_pos hs.1 hs.2.2.1, inline_pos hs.2.1 hs.2.2.2, e1]
  dsimp only [Except.bind]
  rw [e2]
  dsimp only
  rw [if_pos hl']
  unfold toPillow
  dsimp only
  rw [e2]
  dsimp only
  rw [if_pos hl']
  rfl

/-- With the abbreviation the decoder itself fails. -/
theorem C128_dct_counterexample (inflate : Bytes → Option Bytes) (data : Bytes) :
    inlinePillow inflate (.image [(b!"W", .int 1), (b!"H", .int 1), (b!"BPC", .int 8), (b!"CS", .name b!"RGB"), (b!"F", .name b!"DCT")] data) = .error .typeError := rfl

/-- The abbreviation I of Indexed is not known: the data, which are still encoded, are taken for pixels in the base colour space. -/
theorem C128_indexed_counterexample (inflate : Bytes → Option Bytes) (data : Bytes) :
    inlinePillow inflate (.image [(b!"W", .int 1), (b!"H", .int 1), (b!"BPC", .int 8), (b!"CS", .arr [.name b!"I", .name b!"RGB", .int 1, .hex b!"000000FFFFFF"]), (b!"F", .name b!"AHx")] data) =
      .ok (.pixels b!"RGB" 1 1 data) ∧
    inlinePillow inflate (.image [(b!"W", .int 1), (b!"H", .int 1), (b!"BPC", .int 8), (b!"CS", .arr [.name b!"Indexed", .name b!"RGB", .int 1, .hex b!"000000FFFFFF"]), (b!"F", .name b!"AHx")] b!"01>") =
      .ok (.palette 1 1 [0, 0, 0, 255, 255, 255] b!"RGB" [1]) := ⟨rfl, rfl⟩


/-- Two rows of ten pixels, coded as facsimiles are. -/
def faxImage (filter : Bytes) : Content :=
  .image [(b!"W", .int 10), (b!"H", .int 2), (b!"BPC", .int 1), (b!"CS", .name b!"G"), (b!"F", .name filter), (b!"DP", .dict [(b!"K", .int (-1)), (b!"Columns", .int 10)])]
    [0x2F, 0x78, 0x00, 0x80, 0x08]

/-- Nor is the abbreviation CCF: the rows of bits are taken for pixels of 8 bits. -/
theorem C128_fax_counterexample : inlinePillow (fun _ => none) (faxImage b!"CCITTFaxDecode") = .ok (.pixels b!"1" 10 2 [199, 192, 199, 192]) ∧
    inlinePillow (fun _ => none) (faxImage b!"CCF") = .ok (.pixels b!"L" 10 2 ([199, 192, 199, 192] ++ List.replicate 16 0)) := by
  constructor <;> decide +kernel

/-- An image without a width. -/
theorem C128_empty_counterexample (inflate : Bytes → Option Bytes) :
    inlinePillow inflate (.image [(b!"Width", .int 0), (b!"Height", .int 1), (b!"ColorSpace", .name b!"RGB")] []) = .error .typeError ∧
    inlinePillow inflate (.image [(b!"W", .int 0), (b!"H", .int 1), (b!"CS", .name b!"RGB")] []) = .ok (.pixels b!"RGB" 0 1 []) := ⟨rfl, rfl⟩

end PdfReader
