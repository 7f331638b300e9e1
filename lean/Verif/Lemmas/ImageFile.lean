/-
  Pictures of pages and images of a file.
-/
import Verif.Spec.ImageFile
import Verif.Model.ViewImage
import Verif.Props.View
import Verif.Props.Image

namespace PdfReader

open Spec

section
variable {σ : Type} {loc : Locator σ} {I : σ → Prop} {store : Store} {filtered : List (Bytes × Obj) → Bytes → Res Bytes} {builtin : Builtin}
  {predefined : Bytes → Option CMap}

theorem ev_list {α : Type} {P : α → Nat → Prop} : ∀ l : List α, (∀ a ∈ l, Ev (P a)) → Ev fun f => ∀ a ∈ l, P a f
  | [], _ => .all fun f a h => by cases h
  | a :: l, h => ((h a List.mem_cons_self).and (ev_list l fun b hb => h b (List.mem_cons_of_mem _ hb))).mono fun f hf b hb => by
    rcases List.mem_cons.mp hb with rfl | hb
    · exact hf.1
    · exact hf.2 b hb

/-- The names which a content may paint. -/
def namesIn (cs : List Content) : List Bytes :=
  cs.flatMap fun c => match c with
    | .op _ (.name n :: _) => [n]
    | .op _ (.hex n :: _) => [n]
    | .op _ (.token n :: _) => [n]
    | _ => []

theorem paints_names {cs : List Content} {n : Bytes} (h : Paints cs n) : n ∈ namesIn cs := by
  obtain ⟨o, rest, hm, ho⟩ := h
  refine List.mem_flatMap.mpr ⟨_, hm, ?_⟩
  rcases ho with rfl | rfl | rfl <;> exact List.mem_singleton.mpr rfl

/-- A page which paints a picture paints it in the viewer. -/
theorem picture_soon (hd : Delivers loc I store) {es : List (Bytes × Obj)} {p : Picture} (h : PagePaints store filtered builtin predefined es p) :
    Soon I fun f s => ∃ c, Shown (pageInfo filtered builtin predefined loc f s (asPage es)) c ∧ Depicts c p := by
  obtain ⟨chain, v, s, cs, fs', dec, h1, h2, h3, h4, h5, h6, h7, h8, h9, h10, h11, h12⟩ := h
  obtain ⟨kw, n1, n2, n3⟩ := page_resources hd (some b!"Page") es chain h1 h2 h3
  have shown : ∀ {fs cs fs' ts}, Shows dec (DoIs store filtered builtin predefined chain) (GsIs store chain) fs cs fs' ts →
      Soon I fun f s => Shows (decoding (hostAt filtered builtin predefined loc f (asPage es) s).decode kw)
        (PlainDo (hostAt filtered builtin predefined loc f (asPage es) s) kw) (PlainGs (hostAt filtered builtin predefined loc f (asPage es) s) kw) fs cs fs' ts :=
    fun hs => shows_soon (J := I) (dec' := fun f s => decoding (hostAt filtered builtin predefined loc f (asPage es) s).decode kw)
      (doOk' := fun f s => PlainDo (hostAt filtered builtin predefined loc f (asPage es) s) kw)
      (gsOk' := fun f s => PlainGs (hostAt filtered builtin predefined loc f (asPage es) s) kw)
      (fun k o t e => string_soon hd (asPage es) n2 (h7 k o t e)) (fun k args e => do_soon hd (some b!"Page") es chain h1 n2 e)
      (fun args e => gs_soon hd (asPage es) n2 e) hs
  have hc := C23_commands cs s h6
  have hforms : Ev fun f => ∀ n ∈ namesIn cs, ∀ st, I st → ∀ us, p.forms n = some us → Paints cs n → (∃ d raw, nearest chain b!"XObject" n = some (.stream b!"Form" d raw) ∧ raw ≠ []) →
      ∃ q c, renderPage (hostAt filtered builtin predefined loc f (asPage es) st) kw s {} = (.ok (), q) ∧ assoc n q.canvas.forms = some c ∧ c.strings = us := by
    refine ev_list _ fun n _ => ?_
    cases hus : p.forms n with
    | none => exact .all fun f st _ us e => by cases e
    | some us =>
      obtain ⟨cs₁, cs₂, rest, d, raw, f, fs, fs'', ts₁, ts₂, rfl, g1, g2, g3, g4, g5, g6⟩ := h12 n us hus
      refine ((shown g3).and ((shown g4).and (form_soon hd (some b!"Page") es chain h1 g6))).mono fun fuel hf st hst us' e _ hex => ?_
      cases e
      obtain ⟨d', raw', hn, hraw⟩ := hex
      rw [g5] at hn
      cases hn
      obtain ⟨q, c, q1, _, q2, q3⟩ := C53_form_partial (hostAt filtered builtin predefined loc fuel (asPage es) st) kw n1 s cs₁ cs₂ n rest hc g2 f fs fs'' ts₁ us ts₂
        (hf.1 st hst) (hf.2.1 st hst) g1 d raw (by rw [n2]; exact g5) hraw (hf.2.2 st hst)
      exact ⟨q, c, q1, q2, q3⟩
  refine ((n3.and (entry_reads hd h4)).and ((shown h8).and hforms)).mono fun f hf st hst => ?_
  obtain ⟨q, e1, e2, e3⟩ := C53_strings_partial (hostAt filtered builtin predefined loc f (asPage es) st) kw n1 s cs hc p.strings fs' (hf.2.1 st hst)
  obtain ⟨i1, i2⟩ := C80_painted_partial _ kw s cs hc (shows_no_navigate (hf.2.1 st hst)) q e1
  refine ⟨q.canvas, ⟨kw, s, q, ⟨(hf.1.1 st hst).1, v, (hf.1.2 st hst).1, contents_are (fun _ _ _ => rfl) h5⟩, e1, rfl⟩, e2, e3.trans h9.symm, fun n => ?_, fun n => ?_⟩
  · apply Option.ext
    intro x
    rw [i1 n x, h10 n x, n2]
  · have hi := i2 n
    rw [n2] at hi
    cases hus : p.forms n with
    | none =>
      cases ha : assoc n q.canvas.forms with
      | none => rfl
      | some c =>
        obtain ⟨us, e⟩ := (h11 n).mpr (hi.mp ⟨c, ha⟩)
        rw [hus] at e
        cases e
    | some us =>
      obtain ⟨hp, hex⟩ := (h11 n).mp ⟨us, hus⟩
      obtain ⟨q', c, r1, r2, r3⟩ := hf.2.2 n (paints_names hp) st hst us hus hp hex
      rw [e1] at r1
      cases r1
      rw [r2]
      exact congrArg some r3

/-- Pages and canvases. -/
inductive AllDepict : List Canvas → List Picture → Prop
  | nil : AllDepict [] []
  | cons (c : Canvas) (p : Picture) (cs : List Canvas) (ps : List Picture) : Depicts c p → AllDepict cs ps → AllDepict (c :: cs) (p :: ps)

theorem pictures_soon (hd : Delivers loc I store) {es : List (List (Bytes × Obj))} {ps : List Picture}
    (h : PagesPaint store filtered builtin predefined es ps) :
    Soon I fun f s => ∃ cs, AllShown ((es.map asPage).map (pageInfo filtered builtin predefined loc f s)) cs ∧ AllDepict cs ps := by
  induction h with
  | nil => exact .always fun f s => ⟨[], .nil, .nil⟩
  | cons es p es' ps h1 _ ih =>
    exact (picture_soon hd h1).both ih fun f s ⟨c, e1, e2⟩ ⟨cs, e3, e4⟩ => ⟨c :: cs, .cons _ _ _ _ e1 e3, .cons _ _ _ _ e2 e4⟩

theorem depict_at {cs : List Canvas} {ps : List Picture} (h : AllDepict cs ps) : cs.length = ps.length ∧
    ∀ (n : Nat) p, ps[n]? = some p → ∃ c, cs[n]? = some c ∧ Depicts c p := by
  induction h with
  | nil => exact ⟨rfl, fun n p e => by simp at e⟩
  | cons c p cs ps h1 _ ih =>
    refine ⟨by simp [ih.1], fun n p' e => ?_⟩
    cases n with
    | zero =>
      cases e
      exact ⟨c, rfl, h1⟩
    | succ n => exact ih.2 n p' e

/-! ### Images -/

theorem names_vals (ns : List Bytes) : nameVals (ns.map fun n => .atom (.name n)) = .ok ns := by
  induction ns with
  | nil => rfl
  | cons n ns ih =>
    show (nameVals (ns.map fun n => .atom (.name n))).map _ = _
    rw [ih]
    rfl

theorem filter_gives (hd : Delivers loc I store) {d : List (Bytes × Obj)} {f : ImgFilter} (h : FilterIs store d f) (cls raw : Bytes) :
    ∃ v, filterVal v = .ok f ∧ Ev fun fuel => Gives I (attr loc fuel (.stream cls d raw) b!"Filter") v := by
  cases h with
  | absent h => exact ⟨_, rfl, streamEntry_none h cls raw⟩
  | one n h => exact ⟨_, rfl, streamEntry_reads hd h cls raw⟩
  | many ns h =>
    refine ⟨_, ?_, streamEntry_reads hd h cls raw⟩
    show (nameVals _).map _ = _
    rw [names_vals]
    rfl

theorem noMask_gives (hd : Delivers loc I store) {d : List (Bytes × Obj)} (h : NoMask store d) (cls raw : Bytes) :
    ∃ v, truthyVal v = false ∧ Ev fun fuel => Gives I (attr loc fuel (.stream cls d raw) b!"ImageMask") v := by
  rcases h with h | h
  · exact ⟨_, rfl, streamEntry_none h cls raw⟩
  · exact ⟨_, rfl, streamEntry_reads hd h cls raw⟩

theorem pureOk_bind {α β : Type} {v : α} {r : Res α} (hr : r = .ok v) {k : α → DM σ β} {w : β} (h : Gives I (k v) w) : Gives I ((DM.pure r).bind k) w := by
  subst hr
  exact gives_bind (gives_pure _) h

theorem natVal_nat (n : Nat) : natVal (.atom (.int n)) = .ok n := by
  unfold natVal
  dsimp only
  rw [if_pos (Int.natCast_nonneg n)]
  rfl

theorem table_item {lookup : Val} {t : Bytes} (h : TableIs filtered lookup t) (fuel : Nat) :
    ∃ item, TableOf item t ∧ Gives I (csItem filtered loc fuel lookup) item := by
  cases h with
  | string o t h =>
    cases h with
    | str s => exact ⟨_, .str _, gives_pure _⟩
    | hex s =>
      refine ⟨.hex (.ok t), .hex _, ?_⟩
      rw [← hexBytes_pairs t]
      exact gives_pure _
  | stream cls d raw t h =>
    refine ⟨.stream (.ok t), .stream _, ?_⟩
    rw [← h]
    exact gives_pure _

theorem base_item (hd : Delivers loc I store) {base : Val} {mode : Bytes} (h : BaseIs store base mode) :
    ∃ item, pilItem item = .ok mode ∧ Ev fun fuel => Gives I (csItem filtered loc fuel base) item := by
  cases h with
  | device n mode k hn hg =>
    refine ⟨.name n, ?_, 0, fun fuel _ => gives_pure _⟩
    simp only [deviceSpaces, List.mem_cons, List.not_mem_nil, or_false, Prod.mk.injEq] at hn
    rcases hn with ⟨rfl, rfl, rfl⟩ | ⟨rfl, rfl, rfl⟩ | ⟨rfl, rfl, rfl⟩ | ⟨rfl, rfl, rfl⟩ | ⟨rfl, rfl, rfl⟩ | ⟨rfl, rfl, rfl⟩
    all_goals first | rfl | exact absurd rfl hg
  | profile cls p raw mode k hk hm =>
    refine ⟨.space (some k), ?_, (streamEntry_reads hd hk cls raw).mono fun fuel h => ?_⟩
    · simp only [List.mem_cons, List.not_mem_nil, or_false, Prod.mk.injEq] at hm
      rcases hm with ⟨rfl, rfl⟩ | ⟨rfl, rfl⟩ | ⟨rfl, rfl⟩ <;> rfl
    · unfold csItem
      dsimp only
      rw [if_pos rfl]
      refine gives_bind (a := some (k : Int)) ?_ (gives_pure _)
      exact gives_bind h (gives_pure _)

theorem toPillow_indexed (im : ImageAttrs) {mode d t : Bytes} {base hival lookup : CsItem} (hb : pilItem base = .ok mode) (hf : PlainFilter im.filter) (hm : im.mask = false)
    (ht : TableOf lookup t) (hs : im.space = .arr [.name b!"Indexed", base, hival, lookup]) (hd : im.filtered = .ok d) :
    toPillow im = .ok (.palette im.width im.height t mode d) := by
  obtain ⟨f, e, h1, h2⟩ := plain_filter im.filter hf
  unfold toPillow
  rw [e]
  dsimp only
  rw [if_neg h1, if_neg (by rintro (h | h); exact h2 h; rw [hm] at h; cases h), hs]
  unfold arrayImage
  dsimp only
  rw [if_pos (by decide), hb, hd]
  cases ht <;> rfl

/-- How `decoded` reads Decode of an image of two colours. -/
theorem asWritten_gives (hd : Delivers loc I store) {d : List (Bytes × Obj)} (h : AsWritten store d) (cls raw : Bytes) :
    ∃ v dec, decodeVal v = .ok dec ∧ (dec = none ∨ dec = some [0, 1]) ∧ Ev fun fuel => Gives I (attr loc fuel (.stream cls d raw) b!"Decode") v := by
  rcases h with h | h
  · exact ⟨_, none, rfl, .inl rfl, streamEntry_none h cls raw⟩
  · exact ⟨_, some [0, 1], rfl, .inr rfl, streamEntry_reads hd h cls raw⟩

theorem exchanged_gives (hd : Delivers loc I store) {d : List (Bytes × Obj)} (h : Exchanged store d) (cls raw : Bytes) :
    ∃ v, decodeVal v = .ok (some [1, 0]) ∧ Ev fun fuel => Gives I (attr loc fuel (.stream cls d raw) b!"Decode") v :=
  ⟨_, rfl, streamEntry_reads hd h cls raw⟩

/-- What `to_Pillow` reads of a mask. -/
theorem mask_attrs (hd : Delivers loc I store) {d : List (Bytes × Obj)} {raw cls : Bytes} {w h : Nat} {f : ImgFilter} {v : Val} {dec : Option (List Nat)} (hs : SizeIs store d w h)
    (hf : FilterIs store d f) (hp : PlainFilter f) (hm : EntryIs store d b!"ImageMask" (.atom (.bool true))) (hb : EntryIs store d b!"BitsPerComponent" (.atom (.int 1)))
    (hv : decodeVal v = .ok dec) (hdec : Ev fun fuel => Gives I (attr loc fuel (.stream cls d raw) b!"Decode") v) :
    Ev fun fuel => Gives I (imageAttrs filtered loc fuel (.stream cls d raw))
      { width := w, height := h, filter := f, mask := true, bits := some 1, decode := dec, raw := raw, filtered := filtered d raw } := by
  obtain ⟨vf, f1, f2⟩ := filter_gives hd hf cls raw
  obtain ⟨last, l1, l2, l3⟩ := plain_filter f hp
  refine (((streamEntry_reads hd hs.1 cls raw).and (streamEntry_reads hd hs.2 cls raw)).and ((f2.and (streamEntry_reads hd hm cls raw)).and
    ((streamEntry_reads hd hb cls raw).and hdec))).mono fun fuel hf => ?_
  obtain ⟨⟨a1, a2⟩, ⟨a3, a4⟩, a5, a6⟩ := hf
  refine gives_bind a1 (pureOk_bind (natVal_nat w) (gives_bind a2 (pureOk_bind (natVal_nat h) (gives_bind a3 (pureOk_bind f1 (pureOk_bind l1 ?_))))))
  rw [if_neg l2]
  refine gives_bind (a := true) ?_ ?_
  · unfold maskVal
    rw [if_neg l3]
    exact gives_bind a4 (gives_pure _)
  · rw [if_pos (Or.inr rfl)]
    exact gives_bind a5 (pureOk_bind rfl (gives_bind a6 (pureOk_bind hv (gives_pure _))))

/-- What `to_Pillow` reads of a facsimile. -/
theorem fax_attrs (hd : Delivers loc I store) {d : List (Bytes × Obj)} {raw cls : Bytes} {w h : Nat} {f : ImgFilter} {v : Val} {dec : Option (List Nat)} (hs : SizeIs store d w h)
    (hf : FilterIs store d f) (hx : FaxFilter f) (hb : EntryIs store d b!"BitsPerComponent" (.atom (.int 1)))
    (hv : decodeVal v = .ok dec) (hdec : Ev fun fuel => Gives I (attr loc fuel (.stream cls d raw) b!"Decode") v) :
    Ev fun fuel => Gives I (imageAttrs filtered loc fuel (.stream cls d raw))
      { width := w, height := h, filter := f, bits := some 1, decode := dec, raw := raw, filtered := filtered d raw } := by
  obtain ⟨vf, f1, f2⟩ := filter_gives hd hf cls raw
  refine (((streamEntry_reads hd hs.1 cls raw).and (streamEntry_reads hd hs.2 cls raw)).and (f2.and
    ((streamEntry_reads hd hb cls raw).and hdec))).mono fun fuel hf => ?_
  obtain ⟨⟨a1, a2⟩, a3, a5, a6⟩ := hf
  refine gives_bind a1 (pureOk_bind (natVal_nat w) (gives_bind a2 (pureOk_bind (natVal_nat h) (gives_bind a3 (pureOk_bind f1 (pureOk_bind (fax_last hx) ?_))))))
  rw [if_neg (by decide)]
  refine gives_bind (a := false) ?_ ?_
  · unfold maskVal
    rw [if_pos rfl]
    exact gives_pure _
  · rw [if_pos (Or.inl rfl)]
    exact gives_bind a5 (pureOk_bind rfl (gives_bind a6 (pureOk_bind hv (gives_pure _))))

/-- The image is converted as it is to be pictured. -/
theorem pictured_gives (hd : Delivers loc I store) {d : List (Bytes × Obj)} {raw : Bytes} {p : Pil} (h : Pictured store filtered d raw p) (cls : Bytes) :
    Ev fun fuel => Gives I (imagePillow filtered loc fuel (.stream cls d raw)) p := by
  cases h with
  | device w h f n mode data k hs hf hp hm hc hn hg hdata hl =>
    obtain ⟨vf, f1, f2⟩ := filter_gives hd hf cls raw
    obtain ⟨vm, m1, m2⟩ := noMask_gives hd hm cls raw
    obtain ⟨last, l1, l2, l3⟩ := plain_filter f hp
    refine (((streamEntry_reads hd hs.1 cls raw).and (streamEntry_reads hd hs.2 cls raw)).and ((f2.and m2).and (streamEntry_reads hd hc cls raw))).mono fun fuel hf => ?_
    obtain ⟨⟨a1, a2⟩, ⟨a3, a4⟩, a5⟩ := hf
    refine gives_bind (a := { width := w, height := h, filter := f, space := .name n, raw := raw, filtered := filtered d raw }) ?_ ?_
    · refine gives_bind a1 (pureOk_bind (natVal_nat w) (gives_bind a2 (pureOk_bind (natVal_nat h) (gives_bind a3 (pureOk_bind f1 (pureOk_bind l1 ?_))))))
      rw [if_neg l2]
      refine gives_bind (a := false) ?_ ?_
      · unfold maskVal
        rw [if_neg l3]
        refine gives_bind a4 ?_
        rw [m1]
        exact gives_pure _
      · rw [if_neg (by rintro (h | h); exact l3 h; cases h)]
        exact gives_bind a5 (gives_bind (gives_pure _) (gives_pure _))
    · rw [C84_unchanged_partial _ n mode data k hn hg hp rfl rfl hdata hl]
      exact gives_pure _
  | indexed w h f mode data table hival base lookup hs hf hp hm hc hbase ht hdata =>
    obtain ⟨vf, f1, f2⟩ := filter_gives hd hf cls raw
    obtain ⟨vm, m1, m2⟩ := noMask_gives hd hm cls raw
    obtain ⟨last, l1, l2, l3⟩ := plain_filter f hp
    obtain ⟨bitem, b1, b2⟩ := base_item (filtered := filtered) hd hbase
    refine (((streamEntry_reads hd hs.1 cls raw).and (streamEntry_reads hd hs.2 cls raw)).and ((f2.and m2).and ((streamEntry_reads hd hc cls raw).and b2))).mono fun fuel hf => ?_
    obtain ⟨⟨a1, a2⟩, ⟨a3, a4⟩, a5, a6⟩ := hf
    obtain ⟨item, t1, t2⟩ := table_item (I := I) (loc := loc) ht fuel
    refine gives_bind (a := { width := w, height := h, filter := f, space := .arr [.name b!"Indexed", bitem, .int hival, item], raw := raw, filtered := filtered d raw }) ?_ ?_
    · refine gives_bind a1 (pureOk_bind (natVal_nat w) (gives_bind a2 (pureOk_bind (natVal_nat h) (gives_bind a3 (pureOk_bind f1 (pureOk_bind l1 ?_))))))
      rw [if_neg l2]
      refine gives_bind (a := false) ?_ ?_
      · unfold maskVal
        rw [if_neg l3]
        refine gives_bind a4 ?_
        rw [m1]
        exact gives_pure _
      · rw [if_neg (by rintro (h | h); exact l3 h; cases h)]
        refine gives_bind a5 (gives_bind (a := .arr [.name b!"Indexed", bitem, .int hival, item]) ?_ (gives_pure _))
        exact gives_bind (gives_mapM_cons (gives_pure _) (gives_mapM_cons a6 (gives_mapM_cons (gives_pure _) (gives_mapM_cons t2 (gives_mapM_nil _))))) (gives_pure _)
    · rw [toPillow_indexed _ b1 hp rfl t1 rfl hdata]
      exact gives_pure _
  | mask w h f data hs hf hp hm hb hdec hdata =>
    obtain ⟨v, dec, e1, e2, e3⟩ := asWritten_gives hd hdec cls raw
    refine (mask_attrs hd hs hf hp hm hb e1 e3).mono fun fuel hg => gives_bind hg ?_
    rw [C85_bilevel_partial _ (Or.inr ⟨rfl, hp⟩) data hdata rfl e2]
    exact gives_pure _
  | maskExchanged w h f data hs hf hp hm hb hdec hdata =>
    obtain ⟨v, e1, e3⟩ := exchanged_gives hd hdec cls raw
    refine (mask_attrs hd hs hf hp hm hb e1 e3).mono fun fuel hg => gives_bind hg ?_
    rw [C85_inverted_partial _ (Or.inr ⟨rfl, hp⟩) data hdata rfl rfl]
    exact gives_pure _
  | fax w h f data hs hf hx hb hdec hdata =>
    obtain ⟨v, dec, e1, e2, e3⟩ := asWritten_gives hd hdec cls raw
    refine (fax_attrs hd hs hf hx hb e1 e3).mono fun fuel hg => gives_bind hg ?_
    rw [C85_bilevel_partial _ (Or.inl hx) data hdata rfl e2]
    exact gives_pure _
  | faxExchanged w h f data hs hf hx hb hdec hdata =>
    obtain ⟨v, e1, e3⟩ := exchanged_gives hd hdec cls raw
    refine (fax_attrs hd hs hf hx hb e1 e3).mono fun fuel hg => gives_bind hg ?_
    rw [C85_inverted_partial _ (Or.inl hx) data hdata rfl rfl]
    exact gives_pure _
  | encoded w h n hs hf hn =>
    obtain ⟨vf, f1, f2⟩ := filter_gives hd hf cls raw
    refine (((streamEntry_reads hd hs.1 cls raw).and (streamEntry_reads hd hs.2 cls raw)).and f2).mono fun fuel hf => ?_
    obtain ⟨⟨a1, a2⟩, a3⟩ := hf
    refine gives_bind (a := { width := w, height := h, filter := .one n, raw := raw, filtered := filtered d raw }) ?_ ?_
    · refine gives_bind a1 (pureOk_bind (natVal_nat w) (gives_bind a2 (pureOk_bind (natVal_nat h) (gives_bind a3 (pureOk_bind f1 (pureOk_bind (v := some n) rfl ?_))))))
      rw [if_pos (by simp at hn; rcases hn with rfl | rfl; exact Or.inl rfl; exact Or.inr rfl)]
      exact gives_pure _
    · rw [C84_encoded_partial _ rfl (by simp at hn; rcases hn with rfl | rfl; exact Or.inl rfl; exact Or.inr (Or.inl rfl))]
      exact gives_pure _
end

end PdfReader
