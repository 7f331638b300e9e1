/-
  Pages of a file in the viewer.
-/
import Verif.Spec.View
import Verif.Lemmas.Text
import Verif.Props.Objects
import Verif.Props.Content
import Verif.Props.Viewer

namespace PdfReader

open Spec

/-! ### What is shown, eventually -/

section
variable {ι : Type} {J : Nat → ι → Prop}

/-- For all fuels from some number on, and for all states. -/
def Soon (J : ι → Prop) (P : Nat → ι → Prop) : Prop := Ev fun fuel => ∀ s, J s → P fuel s

theorem Soon.both {J : ι → Prop} {P Q R : Nat → ι → Prop} (h1 : Soon J P) (h2 : Soon J Q) (h : ∀ f s, P f s → Q f s → R f s) : Soon J R :=
  (Ev.and h1 h2).mono fun f hf s hs => h f s (hf.1 s hs) (hf.2 s hs)

theorem Soon.one {J : ι → Prop} {P Q : Nat → ι → Prop} (h1 : Soon J P) (h : ∀ f s, P f s → Q f s) : Soon J Q :=
  Ev.mono h1 fun f hf s hs => h f s (hf s hs)

theorem Soon.always {J : ι → Prop} {P : Nat → ι → Prop} (h : ∀ f s, P f s) : Soon J P := .all fun f s _ => h f s

theorem texts_soon {J : ι → Prop} {dec : Obj → Option Text} {dec' : Nat → ι → Obj → Option Text}
    (hd : ∀ o t, dec o = some t → Soon J fun f s => dec' f s o = some t) {xs : List Obj} {ts : List Text} (h : TextsOf dec xs ts) :
    Soon J fun f s => TextsOf (dec' f s) xs ts := by
  induction h with
  | nil => exact .always fun f s => .nil
  | string o t os ts ho ht _ ih => exact (hd o t ht).both ih fun f s h1 h2 => .string o t os ts ho h1 h2
  | other o os ts h1 h2 _ ih => exact ih.one fun f s h => .other o os ts h1 h2 h

/-- Content which shows strings by what the file says shows them to the viewer. -/
theorem shows_soon {J : ι → Prop} {dec : Option Bytes → Obj → Option Text} {doOk : Option Bytes → List Obj → Prop} {gsOk : List Obj → Prop}
    {dec' : Nat → ι → Option Bytes → Obj → Option Text} {doOk' : Nat → ι → Option Bytes → List Obj → Prop} {gsOk' : Nat → ι → List Obj → Prop}
    (hdec : ∀ k o t, dec k o = some t → Soon J fun f s => dec' f s k o = some t) (hdo : ∀ k args, doOk k args → Soon J fun f s => doOk' f s k args)
    (hgs : ∀ args, gsOk args → Soon J fun f s => gsOk' f s args) {fs fs' : List (Option Bytes)} {cs : List Content} {ts : List Text}
    (h : Shows dec doOk gsOk fs cs fs' ts) : Soon J fun f s => Shows (dec' f s) (doOk' f s) (gsOk' f s) fs cs fs' ts := by
  induction h with
  | nil fs => exact .always fun f s => .nil fs
  | image d data fs fs' cs ts hp _ ih => exact ih.one fun f s h => .image d data fs fs' cs ts hp h
  | save args k fs fs' cs ts hp _ ih => exact ih.one fun f s h => .save args k fs fs' cs ts hp h
  | restore args k g fs fs' cs ts hp _ ih => exact ih.one fun f s h => .restore args k g fs fs' cs ts hp h
  | font n size k fs fs' cs ts hp _ ih => exact ih.one fun f s h => .font n size k fs fs' cs ts hp h
  | one name o t k fs fs' cs ts hn ht _ ih => exact (hdec k o t ht).both ih fun f s h1 h2 => .one name o t k fs fs' cs ts hn h1 h2
  | many xs us k fs fs' cs ts hp hx _ ih => exact (texts_soon (hdec k) hx).both ih fun f s h1 h2 => .many xs us k fs fs' cs ts hp h1 h2
  | xobject args k fs fs' cs ts hp hd _ ih => exact (hdo k args hd).both ih fun f s h1 h2 => .xobject args k fs fs' cs ts hp h1 h2
  | state args fs fs' cs ts hp hg _ ih => exact (hgs args hg).both ih fun f s h1 h2 => .state args fs fs' cs ts hp h1 h2
  | marked name tag props k fs fs' cs ts hn h1 h2 hm _ ih =>
    by_cases hex : ∃ es s, props = .dict es ∧ dictGet es b!"Contents" = some (.str s)
    · obtain ⟨es, s, rfl, hs⟩ := hex
      obtain ⟨t, ht⟩ := hm es s rfl hs
      refine (hdec k _ t ht).both ih fun f s' e1 e2 => .marked name tag _ k fs fs' cs ts hn h1 h2 (fun es' s'' e3 e4 => ?_) e2
      cases e3
      rw [hs] at e4
      cases e4
      exact ⟨t, e1⟩
    · exact ih.one fun f s h => .marked name tag props k fs fs' cs ts hn h1 h2 (fun es s e1 e2 => absurd ⟨es, s, e1, e2⟩ hex) h
  | other name args fs fs' cs ts h1 h2 h3 h4 _ ih => exact ih.one fun f s h => .other name args fs fs' cs ts h1 h2 h3 h4 h
end

/-! ### Resources, fonts and graphics states of a store -/

section
variable {σ : Type} {loc : Locator σ} {I : σ → Prop} {store : Store} {filtered : List (Bytes × Obj) → Bytes → Res Bytes} {builtin : Builtin}
  {predefined : Bytes → Option CMap}

theorem named_kinds {chain : List (List (Bytes × Category))} (hc : Consistent chain) (hn : NamedIn chain) :
    ∃ isProcs : Bytes → Bool, (∀ own ∈ chain, KindsOf isProcs own) ∧ ∀ kw, Kinds isProcs kw → Named kw := by
  obtain ⟨p, hp⟩ := hc
  refine ⟨fun k => p k && !decide (k ∈ [b!"Font", b!"XObject", b!"ExtGState"]), fun own ho e he => ?_, fun kw hk cat hcat ns e => ?_⟩
  · have := hp own ho e he
    have h2 := hn own ho e he
    unfold KindOf
    cases h : e.2 with
    | named vs => rw [h] at this; dsimp only at this ⊢; rw [this]; rfl
    | procs ns =>
      rw [h] at this
      dsimp only at this ⊢
      rw [this, decide_eq_false fun hm => h2 hm ns h]
      rfl
  · have := hk cat _ e
    unfold KindOf at this
    dsimp only at this
    rw [decide_eq_true hcat] at this
    simp at this

/-- The resources of a page. -/
theorem page_resources (hd : Delivers loc I store) (c : Option Bytes) (page : List (Bytes × Obj)) (chain : List (List (Bytes × Category)))
    (ha : Ancestry store page chain) (hc : Consistent chain) (hn : NamedIn chain) :
    ∃ kw, Named kw ∧ (∀ cat name, resource kw cat name = nearest chain cat name) ∧ Ev fun fuel => Gives I (fromPage loc fuel (.dict c page) []) kw := by
  obtain ⟨rs, h1, h2⟩ := stack_gives (loc := loc) (I := I) hd ha
  obtain ⟨isProcs, hp, hq⟩ := named_kinds hc hn
  obtain ⟨kw, k1, k2, k3⟩ := layers_merge (loc := loc) (I := I) hd isProcs h1 hp
  exact ⟨kw, hq kw k1, k2, ((h2 c []).and k3).mono fun f hf => gives_bind hf.1 hf.2⟩

/-- `x.Resources` for a stream. -/
theorem streamEntry_reads (hd : Delivers loc I store) {d : List (Bytes × Obj)} {k : Bytes} {v : Val} (h : EntryIs store d k v) (cls raw : Bytes) :
    Ev fun f => Gives I (attr loc f (.stream cls d raw) k) v := by
  obtain ⟨o, h1, h2⟩ := h
  refine (reads_build hd h2).1.mono fun f hf => ?_
  unfold attr
  dsimp only
  rw [h1]
  exact hf

theorem streamEntry_none {d : List (Bytes × Obj)} {k : Bytes} (h : NoEntry d k) (cls raw : Bytes) :
    Ev fun f => Gives I (attr loc f (.stream cls d raw) k) (.atom .null) := by
  rcases h with h | h
  · refine .all fun f => ?_
    unfold attr
    dsimp only
    rw [h]
    exact gives_pure _
  · refine .succ (.succ (.all fun f => ?_))
    unfold attr
    dsimp only
    rw [h]
    exact build_atomic (o := .null) trivial f []

theorem nearest_nil (chain : List (List (Bytes × Category))) (cat name : Bytes) : nearest ([] :: chain) cat name = nearest chain cat name := rfl

/-- The resources of a form on a page. -/
theorem form_resources (hd : Delivers loc I store) (c : Option Bytes) (page : List (Bytes × Obj)) (chain : List (List (Bytes × Category)))
    (ha : Ancestry store page chain) (cls raw : Bytes) (d : List (Bytes × Obj)) (own : List (Bytes × Category)) (ho : OwnResources store d own)
    (hc : Consistent (own :: chain)) (hn : NamedIn (own :: chain)) :
    ∃ kw, Named kw ∧ (∀ cat name, resource kw cat name = nearest (own :: chain) cat name) ∧
      Ev fun fuel => Gives I (formStack loc fuel (.dict c page) (.stream cls d raw)) kw := by
  have hc' : Consistent chain := by
    obtain ⟨p, hp⟩ := hc
    exact ⟨p, fun o h => hp o (List.mem_cons_of_mem _ h)⟩
  have hn' : NamedIn chain := fun o h => hn o (List.mem_cons_of_mem _ h)
  have plain : ∀ v, truthyVal v = false → own = [] → Ev (fun f => Gives I (attr loc f (.stream cls d raw) b!"Resources") v) →
      ∃ kw, Named kw ∧ (∀ cat name, resource kw cat name = nearest (own :: chain) cat name) ∧
        Ev fun fuel => Gives I (formStack loc fuel (.dict c page) (.stream cls d raw)) kw := by
    intro v hv ho hg
    subst ho
    obtain ⟨kw, h1, h2, h3⟩ := page_resources hd c page chain ha hc' hn'
    refine ⟨kw, h1, h2, (hg.and h3).mono fun f hf => gives_bind hf.1 ?_⟩
    rw [hv]
    exact hf.2
  cases ho with
  | absent h => exact plain _ rfl rfl (streamEntry_none h cls raw)
  | present cr rs cs h1 h2 h3 =>
    by_cases he : rs = []
    · subst he
      cases h2
      exact plain _ rfl rfl (streamEntry_reads hd h1 cls raw)
    · obtain ⟨rs', l1, l2⟩ := stack_gives (loc := loc) (I := I) hd ha
      obtain ⟨isProcs, hp, hq⟩ := named_kinds hc hn
      obtain ⟨kw, k1, k2, k3⟩ := layers_merge (loc := loc) (I := I) hd isProcs (.cons cr rs own rs' chain h2 h3 l1) hp
      refine ⟨kw, hq kw k1, k2, ((streamEntry_reads hd h1 cls raw).and ((l2 c [.dict cr rs]).and k3)).mono fun f hf => gives_bind hf.1 ?_⟩
      have ht : truthyVal (.dict cr rs) = true := by
        show (!rs.isEmpty) = true
        cases rs with
        | nil => exact absurd rfl he
        | cons => rfl
      rw [ht]
      exact gives_bind hf.2.1 hf.2.2

/-! ### Fonts -/

theorem plain_atoms (os : List Obj) : plainObj.plainObjs (os.map .atom) = os := by
  induction os with
  | nil => rfl
  | cons o os ih =>
    show plainObj (.atom o) :: plainObj.plainObjs (os.map .atom) = _
    rw [ih]
    rfl

theorem entryOr_gives (hd : Delivers loc I store) {es : List (Bytes × Obj)} {k : Bytes} {o : Obj} (h : EntryOr store es k o) :
    ∃ v, plainObj v = o ∧ Ev fun f => Gives I (entry loc f es k) v := by
  cases h with
  | absent h => exact ⟨.atom .null, rfl, entry_none h⟩
  | object o h => exact ⟨.atom o, rfl, entry_reads hd h⟩
  | array os h => exact ⟨.arr (os.map .atom), congrArg Obj.arr (plain_atoms os), entry_reads hd h⟩

theorem toUnicode_gives (hd : Delivers loc I store) {es : List (Bytes × Obj)} {t : Option Bytes} (h : ToUnicodeIs store filtered es t) :
    ∃ v, cmapText filtered v = .ok t ∧ Ev fun f => Gives I (entry loc f es b!"ToUnicode") v := by
  cases h with
  | absent h => exact ⟨.atom .null, rfl, entry_none h⟩
  | stream cls d raw t h1 h2 h3 =>
    refine ⟨.stream cls d raw, ?_, entry_reads hd h1⟩
    unfold cmapText
    rw [if_pos (by show (!raw.isEmpty) = true; cases raw with | nil => exact absurd rfl h2 | cons => rfl)]
    dsimp only
    rw [h3]
    rfl

theorem encoding_gives (hd : Delivers loc I store) {es : List (Bytes × Obj)} {e : Option Obj} (h : EncodingIs store es e) :
    ∃ v, (Ev fun f => Gives I (entry loc f es b!"Encoding") v) ∧ Ev fun f => Gives I (fontEncoding loc f v) e := by
  cases h with
  | absent h => exact ⟨.atom .null, entry_none h, .all fun f => gives_pure _⟩
  | name n h => exact ⟨_, entry_reads hd h, .all fun f => gives_pure _⟩
  | dict c ds b d h1 h2 h3 h4 =>
    obtain ⟨vb, rfl, gb⟩ := entryOr_gives hd h3
    obtain ⟨vd, rfl, gd⟩ := entryOr_gives hd h4
    refine ⟨_, entry_reads hd h1, (gb.and gd).mono fun f hf => ?_⟩
    cases ds with
    | nil => exact absurd rfl h2
    | cons x ds => exact gives_bind hf.1 (gives_bind hf.2 (gives_pure _))

theorem baseFont_gives (hd : Delivers loc I store) {es : List (Bytes × Obj)} {b : Option Bytes} (h : BaseFontIs store es b) :
    ∃ v, fontName v = b ∧ Ev fun f => Gives I (entry loc f es b!"BaseFont") v := by
  cases h with
  | absent h => exact ⟨.atom .null, rfl, entry_none h⟩
  | name n h => exact ⟨_, rfl, entry_reads hd h⟩

theorem font_gives (hd : Delivers loc I store) {v : Val} {fd : FontDict} (h : FontIs store filtered v fd) :
    Ev fun f => Gives I (fontDict filtered loc f v) fd := by
  obtain ⟨c, es, fd, h1, h2, h3⟩ := h
  obtain ⟨u, u1, u2⟩ := toUnicode_gives (filtered := filtered) hd h1
  obtain ⟨e, e1, e2⟩ := encoding_gives hd h2
  obtain ⟨b, b1, b2⟩ := baseFont_gives hd h3
  refine (u2.and ((e1.and e2).and b2)).mono fun f hf => ?_
  refine gives_bind hf.1 (gives_bind hf.2.1.1 ?_)
  rw [u1]
  refine gives_bind (gives_pure _) (gives_bind hf.2.1.2 (gives_bind hf.2.2 ?_))
  rw [b1]
  exact gives_pure _

/-- The viewer decodes as the file says. -/
theorem string_soon (hd : Delivers loc I store) (page : Val) {chain : List (List (Bytes × Category))} {kw : Resources}
    (hkw : ∀ cat name, resource kw cat name = nearest chain cat name) {k : Option Bytes} {o : Obj} {t : Text}
    (h : StringIs store filtered builtin predefined chain k o t) :
    Soon I fun f s => decoding (hostAt filtered builtin predefined loc f page s).decode kw k o = some t := by
  cases h with
  | noFont f o t h1 h2 =>
    refine .always fun f s => ?_
    unfold decoding
    cases k with
    | none => exact h2
    | some n =>
      rw [show (some n).bind (fun n => resource kw b!"Font" n) = nearest chain b!"Font" n from hkw _ _, h1 n rfl]
      exact h2
  | font n v fd o t h1 h2 h3 =>
    refine (font_gives hd h2).mono fun f hf s hs => ?_
    unfold decoding
    rw [show (some n).bind (fun n => resource kw b!"Font" n) = nearest chain b!"Font" n from hkw _ _, h1]
    show ((fontDict filtered loc f v s).1.bind fun fd => fontText builtin predefined fd o).toOption = _
    rw [(hf s hs).1]
    show (fontText builtin predefined fd o).toOption = _
    rw [means_text h3]
    rfl

theorem items_assoc {es : List (Bytes × Obj)} {items : List (Bytes × Val)} (h : ItemsAre store es items) {k : Bytes} {v : Val}
    (e : assoc k items = some v) : k ∈ es.map (·.1) ∧ (k, v) ∈ items := by
  induction h with
  | nil => cases e
  | cons k' o v' es vs _ _ ih =>
    unfold assoc at e
    split at e
    · rename_i hk
      cases e
      subst hk
      exact ⟨List.mem_cons_self, List.mem_cons_self⟩
    · exact ⟨List.mem_cons_of_mem _ (ih e).1, List.mem_cons_of_mem _ (ih e).2⟩

theorem gs_soon (hd : Delivers loc I store) (page : Val) {chain : List (List (Bytes × Category))} {kw : Resources}
    (hkw : ∀ cat name, resource kw cat name = nearest chain cat name) {args : List Obj} (h : GsIs store chain args) :
    Soon I fun f s => PlainGs (hostAt filtered builtin predefined loc f page s) kw args := by
  obtain ⟨n, rest, rfl, h⟩ := h
  cases hv : nearest chain b!"ExtGState" n with
  | none => exact .always fun f s => ⟨n, rest, rfl, fun v e => by rw [hkw, hv] at e; cases e⟩
  | some v =>
    obtain ⟨cls, es, items, rfl, h1, h2, h3⟩ := h v hv
    refine (items_gives hd h1).mono fun f hf s hs => ⟨n, rest, rfl, fun v e => ?_⟩
    rw [hkw, hv] at e
    cases e
    have no : ∀ k, k ∈ [b!"self", b!"font_name", b!"Font"] → assoc k items = none := by
      intro k hk
      cases ha : assoc k items with
      | none => rfl
      | some w => exact absurd hk (h2 k (items_assoc h1 ha).1)
    exact ⟨cls, es, items, rfl, (hf s hs).1, no _ (by simp), no _ (by simp), no _ (by simp), fun k w ha => h3 _ (items_assoc h1 ha).2⟩

/-- A form. -/
theorem form_soon (hd : Delivers loc I store) (c : Option Bytes) (page : List (Bytes × Obj)) (chain : List (List (Bytes × Category)))
    (ha : Ancestry store page chain) {d : List (Bytes × Obj)} {raw : Bytes} {k : Option Bytes} {ts : List Text}
    (h : FormIs store filtered builtin predefined chain d raw k ts) :
    Soon I fun f s => FormShows (hostAt filtered builtin predefined loc f (.dict c page) s) (.stream b!"Form" d raw) k ts := by
  obtain ⟨own, s, cs, k', dec, h1, h2, h3, h4, h5, h6, h7⟩ := h
  obtain ⟨kw, n1, n2, n3⟩ := form_resources hd c page chain ha b!"Form" raw d own h1 h2 h3
  have hs := shows_soon (J := I) (dec' := fun f s => decoding (hostAt filtered builtin predefined loc f (.dict c page) s).decode kw)
    (doOk' := fun _ _ _ _ => True) (gsOk' := fun f s => PlainGs (hostAt filtered builtin predefined loc f (.dict c page) s) kw)
    (fun k o t e => string_soon hd (.dict c page) n2 (h6 k o t e)) (fun _ _ _ => .always fun _ _ => trivial)
    (fun args e => gs_soon hd (.dict c page) n2 e) h7
  exact (n3.and hs).mono fun f hf st hst => ⟨kw, s, cs, k', (hf.1 st hst).1, n1, h4, C23_commands cs s h5, hf.2 st hst⟩

theorem do_soon (hd : Delivers loc I store) (c : Option Bytes) (page : List (Bytes × Obj)) (chain : List (List (Bytes × Category)))
    (ha : Ancestry store page chain) {kw : Resources} (hkw : ∀ cat name, resource kw cat name = nearest chain cat name) {k : Option Bytes} {args : List Obj}
    (h : DoIs store filtered builtin predefined chain k args) :
    Soon I fun f s => PlainDo (hostAt filtered builtin predefined loc f (.dict c page) s) kw k args := by
  obtain ⟨n, rest, rfl, h⟩ := h
  by_cases hv : ∃ d raw, nearest chain b!"XObject" n = some (.stream b!"Form" d raw)
  · obtain ⟨d, raw, hv⟩ := hv
    obtain ⟨ts, ht⟩ := h d raw hv
    refine (form_soon hd c page chain ha ht).one fun f s hs => ⟨n, rest, rfl, fun es d' e => ?_⟩
    rw [hkw, hv] at e
    cases e
    exact ⟨ts, hs⟩
  · exact .always fun f s => ⟨n, rest, rfl, fun es d' e => absurd ⟨es, d', by rw [← hkw, e]⟩ hv⟩

theorem contents_are {h : Host} (hh : ∀ cls d raw, h.data (.stream cls d raw) = filtered d raw) {v : Val} {s : Bytes} (hv : ContentsData filtered v s) :
    ContentsAre h v s := by
  induction hv with
  | one cls d raw s e => exact .one cls d raw s (by rw [hh, e])
  | none => exact .none
  | more cls d raw s t vs e _ ih => exact .more cls d raw s t vs (by rw [hh, e]) ih

/-- A page which shows strings shows them in the viewer. -/
theorem page_soon (hd : Delivers loc I store) {es : List (Bytes × Obj)} {ts : List Text} (h : PageShows store filtered builtin predefined es ts) :
    Soon I fun f s => ∃ c, Shown (pageInfo filtered builtin predefined loc f s (asPage es)) c ∧ c.strings = ts := by
  obtain ⟨chain, v, s, cs, fs', dec, h1, h2, h3, h4, h5, h6, h7, h8⟩ := h
  obtain ⟨kw, n1, n2, n3⟩ := page_resources hd (some b!"Page") es chain h1 h2 h3
  have hs := shows_soon (J := I) (dec' := fun f s => decoding (hostAt filtered builtin predefined loc f (asPage es) s).decode kw)
    (doOk' := fun f s => PlainDo (hostAt filtered builtin predefined loc f (asPage es) s) kw)
    (gsOk' := fun f s => PlainGs (hostAt filtered builtin predefined loc f (asPage es) s) kw)
    (fun k o t e => string_soon hd (asPage es) n2 (h7 k o t e)) (fun k args e => do_soon hd (some b!"Page") es chain h1 n2 e)
    (fun args e => gs_soon hd (asPage es) n2 e) h8
  refine ((n3.and (entry_reads hd h4)).and hs).mono fun f hf st hst => ?_
  obtain ⟨p, e1, e2, _⟩ := C53_strings_partial (hostAt filtered builtin predefined loc f (asPage es) st) kw n1 s cs (C23_commands cs s h6) ts fs' (hf.2 st hst)
  refine ⟨p.canvas, ⟨kw, s, p, ⟨(hf.1.1 st hst).1, v, (hf.1.2 st hst).1, contents_are (fun _ _ _ => rfl) h5⟩, e1, rfl⟩, e2⟩

theorem pages_soon (hd : Delivers loc I store) {ps : List (List (Bytes × Obj))} {tss : List (List Text)}
    (h : PagesShow store filtered builtin predefined ps tss) :
    Soon I fun f s => ∃ cs, AllShown ((ps.map asPage).map (pageInfo filtered builtin predefined loc f s)) cs ∧ cs.map (·.strings) = tss := by
  induction h with
  | nil => exact .always fun f s => ⟨[], .nil, rfl⟩
  | cons es ts ps tss h1 _ ih =>
    refine (page_soon hd h1).both ih fun f s ⟨c, e1, e2⟩ ⟨cs, e3, e4⟩ => ⟨c :: cs, .cons _ _ _ _ e1 e3, ?_⟩
    rw [List.map_cons, e2, e4]
end

end PdfReader
