/-
  C89-C93: opening a whole file, delivering its objects, its pages and their resources; reading back a file which was written.
-/
import Verif.Lemmas.WriteFile
import Verif.Props.Objects

namespace PdfReader

open Spec

/-! ### C89: opening -/

theorem header_of {file v : Bytes} {k : Nat} (h : HeaderAt file v k) : pdfHeader file = .ok (v, k) := by
  obtain ⟨junk, h, rest, rfl, rfl, h1, h2, h3, h4, h5⟩ := h
  exact C25_version junk v h rest h1 h2 h3 h4 h5

theorem start_of {file : Bytes} {off : Nat} {clamps : Bool} (h : StartsAt file off) (hb : clamps = true ∨ 1024 ≤ file.length) :
    xrefOffset clamps file = .ok off := by
  obtain ⟨body, s, ds, r, tail, rfl, h1, h2, h3, rfl, h4, h5, h6, h7⟩ := h
  exact C26_last_startxref clamps body s ds r tail h1 h2 h3 h4 h5 h6 h7 hb

variable {filtered : List (Bytes × Obj) → Bytes → Res Bytes}

/-- The entries of the trailer which the user sees agree with the dictionary of the newest section. -/
def TrailerIs (trailer dict : List (Bytes × Obj)) : Prop :=
  ∀ key ∈ [b!"Size", b!"Prev", b!"Root", b!"Encrypt", b!"Info", b!"ID"],
    (∀ o, dictGet dict key = some o → dictGet trailer key = some o) ∧ (dictGet dict key = none → NoEntry trailer key)

theorem streamTrailer_is (d : List (Bytes × Obj)) : TrailerIs (streamTrailer d) d := by
  intro key hkey
  have : dictGet (streamTrailer d) key = some ((dictGet d key).getD .null) := by
    simp only [List.mem_cons, List.not_mem_nil, or_false] at hkey
    rcases hkey with rfl | rfl | rfl | rfl | rfl | rfl <;> rfl
  rw [this]
  refine ⟨fun o h => by rw [h]; rfl, fun h => ?_⟩
  unfold NoEntry
  rw [this, h]
  exact Or.inr rfl

/-- What is known of a parser which has opened a file. -/
structure OpenedAs (filtered : List (Bytes × Obj) → Bytes → Res Bytes) (file v : Bytes) (k : Nat) (r : Revision) (rs : List Revision) (o : Opened) : Prop where
  inside : k ≤ file.length
  version : o.version = v
  trailer : TrailerIs o.trailer r.dict
  file : o.env.file = file
  filter : o.env.filtered = filtered
  sections : AllAgree o.env.xrefs (r :: rs)
  start : o.st.bf = k
  stack : o.st.stack = []

/-- Nothing is registered but sections which are streams. -/
def OnlySections (reg : List (Key × Obj)) (revs : List Revision) : Prop :=
  ∀ n g x, regGet reg (n, g) = some x → NoPack x ∧ ∃ q ∈ revs, q.own = some (n, g, x)

/-- What is registered is what the document contains. -/
def Agreeing (reg : List (Key × Obj)) (content : Content) : Prop :=
  ∀ n g x, regGet reg (n, g) = some x → NoPack x ∧ ∀ y, content n g = some y → x = y

theorem OnlySections.agreeing {decoded : List (Bytes × Obj) → Bytes → Bytes → Prop} {written : Nat → Nat → Obj → Obj → Prop} {file : Bytes} {k : Nat} {reg : List (Key × Obj)} {revs : List Revision} {content : Content} (h : OnlySections reg revs)
    (hc : Spec.Holds decoded written file k revs content) : Agreeing reg content := fun n g x hx => by
  obtain ⟨h1, q, hq, e⟩ := h n g x hx
  exact ⟨h1, fun y hy => hc.own q hq n g x y e hy⟩

theorem sections_noPack {file : Bytes} {off : Nat} {revs : List Revision}
    (h : Updates (XRefStreamAt (fun d raw data => filtered d raw = .ok data) file) off revs) :
    ∀ q ∈ revs, ∀ n g x, q.own = some (n, g, x) → NoPack x := by
  have one : ∀ off r, XRefStreamAt (fun d raw data => filtered d raw = .ok data) file off r → ∀ n g x, r.own = some (n, g, x) → NoPack x := by
    rintro off r ⟨num, gen, raw, t, rest, first, w0, w1, w2, rows, hown, _, _, htype, _⟩ n g x h d raw' v e hv
    rw [hown] at h
    cases h
    cases e
    rw [htype] at hv
    cases hv
    decide
  induction h with
  | oldest off r hr _ =>
    intro q hq
    simp at hq
    subst hq
    exact one off _ hr
  | newer off p r rs hr _ _ _ ih =>
    intro q hq
    rcases List.mem_cons.mp hq with rfl | hq
    · exact one off _ hr
    · exact ih q hq

theorem openDoc_opens (clamps : Bool) (file v : Bytes) (k off : Nat) (r : Revision) (rs : List Revision) (hh : HeaderAt file v k)
    (hs : StartsAt file off) (hb : clamps = true ∨ 1024 ≤ file.length)
    (hsec : SectionsFrom (fun d raw data => filtered d raw = .ok data) file off (r :: rs)) (fuel : Nat) (hf : rs.length + 1 ≤ fuel) :
    ∃ o, openDoc filtered clamps fuel file = .ok o ∧ OpenedAs filtered file v k r rs o ∧ OnlySections o.st.reg (r :: rs) ∧ ∀ n g x, o.env.dec n g x = .ok x := by
  unfold openDoc
  have hk : k ≤ file.length := by
    obtain ⟨junk, h, rest, rfl, rfl, _⟩ := hh
    simp
  rw [header_of hh]
  dsimp only
  rw [start_of hs hb]
  dsimp only
  rcases hsec with hsec | hsec
  · have h0 : ∃ r', TableAt file off r' := by
      cases hsec with
      | oldest _ _ h => exact ⟨_, h⟩
      | newer _ _ _ _ h => exact ⟨_, h⟩
    obtain ⟨r', hr'⟩ := h0
    have hx := (table_reads hr').1
    have hsect : sections filtered file off = tableSection openCfg file := by
      unfold sections
      rw [hx, if_pos rfl]
    obtain ⟨xs, e, hag⟩ := updates_chain (sec := TableAt file) (sect := tableSection openCfg file) (fun off r h1 h2 => by
        obtain ⟨_, x, hx, h⟩ := table_reads h1
        exact ⟨x, hx, h none (prev_none h2).1⟩) (fun off r p h1 h2 h3 => by
        obtain ⟨_, x, hx, h⟩ := table_reads h1
        exact ⟨x, hx, h (some p) (prev_some h2 h3).1⟩) off (r :: rs) hsec fuel (by simpa using hf)
    rw [hsect, e]
    simp only [hx, decide_true, if_true]
    exact ⟨_, rfl, ⟨hk, rfl, fun key _ => ⟨fun o h => h, fun h => Or.inl h⟩, rfl, rfl, hag, rfl, rfl⟩, fun n g x h => (by cases h), fun _ _ _ => rfl⟩
  · have h0 : ∃ r', XRefStreamAt (fun d raw data => filtered d raw = .ok data) file off r' := by
      cases hsec with
      | oldest _ _ h => exact ⟨_, h⟩
      | newer _ _ _ _ h => exact ⟨_, h⟩
    obtain ⟨r', hr'⟩ := h0
    have hx := (stream_reads hr').1
    have hsect : sections filtered file off = streamSection filtered file := by
      unfold sections
      rw [if_neg hx]
    obtain ⟨xs, e, hag⟩ := updates_chain (sec := XRefStreamAt (fun d raw data => filtered d raw = .ok data) file) (sect := streamSection filtered file)
      (fun off r h1 h2 => by
        obtain ⟨_, x, _, _, _, _, _, hx, _, _, h⟩ := stream_reads h1
        exact ⟨x, hx, h none (prev_none h2).2⟩) (fun off r p h1 h2 h3 => by
        obtain ⟨_, x, _, _, _, _, _, hx, _, _, h⟩ := stream_reads h1
        exact ⟨x, hx, h (some p) (prev_some h2 h3).2⟩) off (r :: rs) hsec fuel (by simpa using hf)
    rw [hsect, e]
    have hd : decide ((file.drop off).head? = some 120) = false := by simpa using hx
    simp only [hd, if_false, Bool.false_eq_true]
    refine ⟨_, rfl, ⟨hk, rfl, streamTrailer_is _, rfl, rfl, hag, rfl, rfl⟩, fun n g x h => ?_, fun _ _ _ => rfl⟩
    have : ∃ q ∈ r :: rs, q.own = some (n, g, x) := ?_
    · obtain ⟨q, hq, e⟩ := this
      exact ⟨sections_noPack hsec q hq n g x e, q, hq, e⟩
    rcases openReg_sound off (r :: rs) hsec _ _ _ _ _ h with h | h
    · cases h
    · exact h

theorem agree_all {xs : List XRef} {qs : List Revision} (h : AllAgree xs qs) : xs.length = qs.length ∧
    ∀ i (hi : i < qs.length), ∃ x, xs[i]? = some x ∧ Agrees x qs[i] := by
  induction h with
  | nil => exact ⟨rfl, fun i hi => absurd hi (by simp)⟩
  | cons hx hxs ih =>
    refine ⟨by simp [ih.1], fun i hi => ?_⟩
    cases i with
    | zero => exact ⟨_, rfl, hx⟩
    | succ i => exact ih.2 i (by simpa using hi)

/-- C89: a file with a header at the beginning of a line, a `startxref` naming the newest cross-reference section, and a chain of
sections, tables or streams, is opened. The version is that of the header, the entries of the trailer are those of the newest section, and
the parser knows for every section, newest first, which objects it lists in use, at which offset and with which generation. -/
theorem C89_opens (clamps : Bool) (file v : Bytes) (k off : Nat) (r : Revision) (rs : List Revision) (hh : HeaderAt file v k)
    (hs : StartsAt file off) (hb : clamps = true ∨ 1024 ≤ file.length)
    (hsec : SectionsFrom (fun d raw data => filtered d raw = .ok data) file off (r :: rs)) (fuel : Nat) (hf : rs.length + 1 ≤ fuel) :
    ∃ o, openDoc filtered clamps fuel file = .ok o ∧ o.version = v ∧ TrailerIs o.trailer r.dict ∧ o.st.bf = k ∧
      o.env.xrefs.length = rs.length + 1 ∧ ∀ i (hi : i < (r :: rs).length), ∃ x, o.env.xrefs[i]? = some x ∧
        ∀ n, (natGet x.inUse n).map (fun e => (e.offset, e.gen)) = (r :: rs)[i].inUse n := by
  obtain ⟨o, e, h, _, _⟩ := openDoc_opens clamps file v k off r rs hh hs hb hsec fuel hf
  obtain ⟨h1, h2⟩ := agree_all h.sections
  exact ⟨o, e, h.version, h.trailer, h.start, by simpa using h1, h2⟩

/-! ### C90: every object is delivered -/

theorem bound_of {decoded : List (Bytes × Obj) → Bytes → Bytes → Prop} {content : Content}
    (hlen : ∀ {n g n' g' : Nat} {o : Obj} {defs defs'}, Defines decoded n g o defs → Defines decoded n' g' o defs' → defs.length = defs'.length) :
    ∀ all : List (Nat × Nat), ∃ B, ∀ n g o defs, (n, g) ∈ all → content n g = some o → Defines decoded n g o defs → defs.length ≤ B := by
  intro all
  induction all with
  | nil => exact ⟨0, fun n g o defs h => by cases h⟩
  | cons k all ih =>
    obtain ⟨B, hB⟩ := ih
    by_cases h : ∃ o defs, content k.1 k.2 = some o ∧ Defines decoded k.1 k.2 o defs
    · obtain ⟨o, defs, h1, h2⟩ := h
      refine ⟨B + defs.length, fun n g o' defs' hm hc hd => ?_⟩
      rcases List.mem_cons.mp hm with rfl | hm
      · rw [h1] at hc
        cases hc
        rw [hlen hd h2]
        omega
      · have := hB n g o' defs' hm hc hd
        omega
    · refine ⟨B, fun n g o' defs' hm hc hd => ?_⟩
      rcases List.mem_cons.mp hm with rfl | hm
      · exact absurd ⟨o', defs', hc, hd⟩ h
      · exact hB n g o' defs' hm hc hd

theorem fileBody_mem {decoded : List (Bytes × Obj) → Bytes → Bytes → Prop} {written : Nat → Nat → Obj → Obj → Prop} {file : Bytes} {revs : List Revision} {content : Content} {es} {body : Bytes}
    (h : FileBody decoded written file revs content es body) : ∀ e ∈ es, ∃ n g o, content n g = some o ∧ Defines decoded n g o e := by
  induction h with
  | nil => intro e he; cases he
  | obj n g o w defs es s t u _ _ _ ho hd _ ih =>
    intro e he
    rcases List.mem_cons.mp he with rfl | he
    · exact ⟨n, g, o, ho, hd⟩
    · exact ih e he
  | startxref es s s₁ ds u _ _ _ _ _ _ ih => exact ih

/-- The parser of an opened file delivers the contents of the file, in all the states it can be in. -/
theorem opened_delivers {file : Bytes} {k : Nat} {r : Revision} {rs : List Revision} {written : Nat → Nat → Obj → Obj → Prop}
    {content : Content} (hc : Holds (fun d raw data => filtered d raw = .ok data) written file k (r :: rs) content) :
    ∃ F, ∀ v o, OpenedAs filtered file v k r rs o → Agreeing o.st.reg content → (∀ n g x w, written n g x w → o.env.dec n g w = .ok x) →
      (∀ n g (k : Int), o.env.dec n g (.int k) = .ok (.int k)) → ∃ I : St → Prop, I o.st ∧ ∀ fuel, F ≤ fuel → Delivers (locate o.env fuel) I content := by
  obtain ⟨es, body, tail, hfile, hbody, hin⟩ := hc.body
  obtain ⟨all, hall⟩ := hc.finite
  obtain ⟨B, hB⟩ := bound_of (content := content) (decoded := fun d raw data => filtered d raw = .ok data)
    (fun h h' => defines_length (env := { file := file, xrefs := [], filtered := filtered }) h h') all
  refine ⟨file.length + B + 2 * (rs.length + 1) + 20, fun v o ho hreg hdec hint => ?_⟩
  obtain ⟨hk, hv, htr, hf, hfl, hag, hbf, hst⟩ := ho
  subst hfl
  have hB' : ∀ n g x defs, content n g = some x → Defines o.env.decoded n g x defs → defs.length ≤ B :=
    fun n g x defs h1 h2 => hB n g x defs (hall n g (by rw [h1]; simp)) h1 h2
  have hBe : ∀ e ∈ es, e.length ≤ B := by
    intro e he
    obtain ⟨n, g, x, h1, h2⟩ := fileBody_mem hbody e he
    exact hB' n g x e h1 h2
  have hknown : Known o.env content o.st := by
    refine ⟨fun n g x y h1 h2 => ?_, fun n g x defs h1 h2 h3 d hd => ?_⟩
    · exact (hreg n g y h2).2 x h1
    · cases hy : regGet o.st.reg (n, g) with
      | none => exact absurd hy h3
      | some y =>
        obtain ⟨hnp, e⟩ := hreg n g y hy
        have := e x h1
        subst this
        rw [defines_noPack hnp h2] at hd
        simp at hd
        subst hd
        exact hy
  have hxl := (agree_all hag).1
  refine ⟨fun s => ScanAt o.env content (r :: rs) written es s ∧ s.stack = [], ⟨⟨hknown, file.take k, es, body, tail, ?_, ?_, by rw [hf]; exact hbody, fun e he => he, fun e he => Or.inl he⟩, hst⟩, ?_⟩
  · rw [hf, ← hfile, List.take_append_drop]
  · rw [hbf, List.length_take]
    omega
  · intro fuel hfuel n g x s hs hx
    obtain ⟨s', e, h1, h2⟩ := locate_content hag hdec hint hc.packed es B hB' hBe hx (by rw [hf]; exact hin n g x hx) hs.1 hs.2 fuel (by
      rw [hf, hxl]; simpa using hfuel)
    rw [e]
    exact ⟨rfl, h1, h2⟩

/-- The state after some references were resolved. -/
def asked (env : Env) (fuel : Nat) (history : List (Nat × Nat)) (s : St) : St :=
  history.foldl (fun s k => (locate env fuel k.1 k.2 s).2) s

theorem asked_keeps {env : Env} {fuel : Nat} {I : St → Prop} {content : Content} (h : Delivers (locate env fuel) I content) :
    ∀ (history : List (Nat × Nat)) (s : St), I s → (∀ k ∈ history, content k.1 k.2 ≠ none) → I (asked env fuel history s) := by
  intro history
  induction history with
  | nil => intro s hs _; exact hs
  | cons k history ih =>
    intro s hs hk
    cases hv : content k.1 k.2 with
    | none => exact absurd hv (hk k (by simp))
    | some o => exact ih _ (h k.1 k.2 o s hs hv).2 fun k' hk' => hk k' (by simp [hk'])

/-- C90: once a file is open, every object which the file holds is delivered, whichever objects of the file were asked for before and in
whichever order: listed objects from where their newest entry says, streams with a direct or an indirect Length, the members of object
streams, and objects which no section lists. -/
theorem C90_delivered (clamps : Bool) (file v : Bytes) (k off : Nat) (r : Revision) (rs : List Revision) (content : Content) (hh : HeaderAt file v k)
    (hs : StartsAt file off) (hb : clamps = true ∨ 1024 ≤ file.length)
    (hsec : SectionsFrom (fun d raw data => filtered d raw = .ok data) file off (r :: rs))
    (hc : Holds (fun d raw data => filtered d raw = .ok data) AsIs file k (r :: rs) content) :
    ∃ F, ∀ fuel, F ≤ fuel → ∃ o, openDoc filtered clamps fuel file = .ok o ∧
      ∀ history : List (Nat × Nat), (∀ k ∈ history, content k.1 k.2 ≠ none) → ∀ n g x, content n g = some x →
        (locate o.env fuel n g (asked o.env fuel history o.st)).1 = .ok x := by
  obtain ⟨F, hF⟩ := opened_delivers hc
  refine ⟨F + rs.length + 1, fun fuel hf => ?_⟩
  obtain ⟨o, e, ho, hos, hpl⟩ := openDoc_opens clamps file v k off r rs hh hs hb hsec fuel (by omega)
  obtain ⟨I, hI, hd⟩ := hF v o ho (hos.agreeing hc) (fun n g x w h => by rw [show w = x from h]; exact hpl n g x) (fun n g k => hpl n g _)
  exact ⟨o, e, fun history hh n g x hx => (hd fuel (by omega) n g x _ (asked_keeps (hd fuel (by omega)) history _ hI hh) hx).1⟩

/-! ### C91: the pages -/

/-- The document opens with this catalog, and from then on delivers this content, whatever it is asked for. -/
def Serves (filtered : List (Bytes × Obj) → Bytes → Res Bytes) (secure : Nat → Opened → Obj → Res Opened) (clamps : Bool) (file v : Bytes) (dict : List (Bytes × Obj))
    (c : Option Bytes) (catalog : List (Bytes × Obj)) (content : Content) : Prop :=
  ∃ F, ∀ fuel, F ≤ fuel → ∃ doc, openDocument filtered (secure fuel) clamps fuel file = .ok (doc, .dict c catalog) ∧ doc.version = v ∧
    TrailerIs doc.trailer dict ∧ ∃ I : St → Prop, I doc.st ∧ ∀ fuel', F ≤ fuel' → Delivers (locate doc.env fuel') I content

/-- The catalog, after the parser has opened the file and the handler is set. -/
theorem openDocument_root {secure : Opened → Obj → Res Opened} {clamps : Bool} {fuel : Nat} {file : Bytes} {o o' : Opened} {I : St → Prop} {content : Content}
    (e : openDoc filtered clamps fuel file = .ok o)
    (hsec : (if truthy ((dictGet o.trailer b!"Encrypt").getD .null) then secure o ((dictGet o.trailer b!"Encrypt").getD .null) else .ok o) = .ok o')
    (hI : I o'.st) (hd : Delivers (locate o'.env fuel) I content) {a b : Nat} {catalog : List (Bytes × Obj)} {c : Option Bytes}
    (hr : dictGet o'.trailer b!"Root" = some (.ref a b)) (hcat : content a b = some (.dict catalog)) (hcls : DictKind catalog c) (hf : 1 ≤ fuel) :
    openDocument filtered secure clamps fuel file = .ok ({ o' with st := (locate o'.env fuel a b o'.st).2 }, .dict c catalog) ∧
      I (locate o'.env fuel a b o'.st).2 := by
  obtain ⟨h1, h2⟩ := hd a b _ o'.st hI hcat
  refine ⟨?_, h2⟩
  unfold openDocument
  rw [e]
  dsimp only
  rw [hsec]
  dsimp only
  unfold docRoot
  rw [hr]
  dsimp only
  obtain ⟨f, rfl⟩ : ∃ f, fuel = f + 1 := ⟨fuel - 1, by omega⟩
  unfold DM.bind factory
  generalize locate o'.env (f + 1) a b o'.st = q at h1 ⊢
  obtain ⟨q1, q2⟩ := q
  cases h1
  dsimp only
  rw [dictKind_class hcls]
  rfl

/-- The catalog of a document which is not encrypted. -/
theorem openDocument_opens (secure : Opened → Obj → Res Opened) (clamps : Bool) (file v : Bytes) (k off : Nat) (r : Revision) (rs : List Revision)
    (content : Content) (hh : HeaderAt file v k) (hs : StartsAt file off) (hb : clamps = true ∨ 1024 ≤ file.length)
    (hsec : SectionsFrom (fun d raw data => filtered d raw = .ok data) file off (r :: rs))
    (hc : Holds (fun d raw data => filtered d raw = .ok data) AsIs file k (r :: rs) content) (henc : NoEntry r.dict b!"Encrypt")
    (a b : Nat) (catalog : List (Bytes × Obj)) (c : Option Bytes) (hroot : dictGet r.dict b!"Root" = some (.ref a b))
    (hcat : content a b = some (.dict catalog)) (hcls : DictKind catalog c) :
    Serves filtered (fun _ => secure) clamps file v r.dict c catalog content := by
  obtain ⟨F, hF⟩ := opened_delivers hc
  refine ⟨F + rs.length + 2, fun fuel hf => ?_⟩
  obtain ⟨o, e, ho, hos, hpl⟩ := openDoc_opens clamps file v k off r rs hh hs hb hsec fuel (by omega)
  obtain ⟨I, hI, hd⟩ := hF v o ho (hos.agreeing hc) (fun n g x w h => by rw [show w = x from h]; exact hpl n g x) (fun n g k => hpl n g _)
  have he : truthy ((dictGet o.trailer b!"Encrypt").getD .null) = false := by
    have : NoEntry o.trailer b!"Encrypt" := by
      obtain ⟨t1, t2⟩ := ho.trailer b!"Encrypt" (by decide)
      rcases henc with h | h
      · exact t2 h
      · exact Or.inr (t1 _ h)
    rcases this with h | h <;> rw [h] <;> rfl
  obtain ⟨h1, h2⟩ := openDocument_root (secure := secure) (o' := o) e (by rw [he]; rfl) hI (hd fuel (by omega)) ((ho.trailer b!"Root" (by decide)).1 _ hroot)
    hcat hcls (by omega)
  exact ⟨_, h1, ho.version, ho.trailer, I, h2, fun f' hf' => hd f' (by omega)⟩

/-- The pages of a document which opens. -/
theorem serves_pages {secure : Nat → Opened → Obj → Res Opened} {clamps : Bool} {file v : Bytes} {dict : List (Bytes × Obj)} {c : Option Bytes}
    {catalog : List (Bytes × Obj)} {content : Content} (h : Serves filtered secure clamps file v dict c catalog content)
    (n g : Nat) (node : List (Bytes × Obj)) (ps : List (List (Bytes × Obj))) (hpages : dictGet catalog b!"Pages" = some (.ref n g))
    (hnode : content n g = some (.dict node)) (htype : dictGet node b!"Type" = some (.name b!"Pages")) (htree : PageTree content n g ps) :
    ∃ F, ∀ fuel, F ≤ fuel → ∃ doc, openDocument filtered (secure fuel) clamps fuel file = .ok (doc, .dict c catalog) ∧
      ∃ F', ∀ fuel', F' ≤ fuel' → ∃ s', docPages (locate doc.env fuel) fuel' (.dict c catalog) doc.st = (ps.map asPage, none, s') := by
  obtain ⟨F, hF⟩ := h
  refine ⟨F, fun fuel hf => ?_⟩
  obtain ⟨doc, e, _, _, I, hI, hd⟩ := hF fuel hf
  refine ⟨doc, e, ?_⟩
  obtain ⟨F', hF'⟩ := C46_order (hd fuel hf) c catalog n g ps hpages htree (fun es h => by
    rw [hnode] at h
    cases h
    exact htype)
  refine ⟨F', fun fuel' hf' => ?_⟩
  obtain ⟨s', _, e'⟩ := hF' fuel' hf' doc.st hI
  exact ⟨s', e'⟩

/-- C91: opening a file which is not encrypted gives the catalog to which the trailer of the newest section refers, and iterating over the
pages of the document yields the pages of its page tree, in order, and ends. -/
theorem C91_pages (secure : Opened → Obj → Res Opened) (clamps : Bool) (file v : Bytes) (k off : Nat) (r : Revision) (rs : List Revision)
    (content : Content) (hh : HeaderAt file v k) (hs : StartsAt file off) (hb : clamps = true ∨ 1024 ≤ file.length)
    (hsec : SectionsFrom (fun d raw data => filtered d raw = .ok data) file off (r :: rs))
    (hc : Holds (fun d raw data => filtered d raw = .ok data) AsIs file k (r :: rs) content) (henc : NoEntry r.dict b!"Encrypt")
    (a b : Nat) (catalog : List (Bytes × Obj)) (c : Option Bytes) (hroot : dictGet r.dict b!"Root" = some (.ref a b))
    (hcat : content a b = some (.dict catalog)) (hcls : DictKind catalog c)
    (n g : Nat) (node : List (Bytes × Obj)) (ps : List (List (Bytes × Obj))) (hpages : dictGet catalog b!"Pages" = some (.ref n g))
    (hnode : content n g = some (.dict node)) (htype : dictGet node b!"Type" = some (.name b!"Pages")) (htree : PageTree content n g ps) :
    ∃ F, ∀ fuel, F ≤ fuel → ∃ doc, openDocument filtered secure clamps fuel file = .ok (doc, .dict c catalog) ∧
      ∃ F', ∀ fuel', F' ≤ fuel' → ∃ s', docPages (locate doc.env fuel) fuel' (.dict c catalog) doc.st = (ps.map asPage, none, s') := by
  exact serves_pages (openDocument_opens secure clamps file v k off r rs content hh hs hb hsec hc henc a b catalog c hroot hcat hcls) n g node ps hpages hnode htype htree

/-- C92: in a document which was opened, the named resources of a page are those defined by the page itself or the nearest of its ancestors,
with references replaced by the objects of the file they refer to; whatever objects of the file were resolved before. -/
theorem C92_resources (secure : Opened → Obj → Res Opened) (clamps : Bool) (file v : Bytes) (k off : Nat) (r : Revision) (rs : List Revision)
    (content : Content) (hh : HeaderAt file v k) (hs : StartsAt file off) (hb : clamps = true ∨ 1024 ≤ file.length)
    (hsec : SectionsFrom (fun d raw data => filtered d raw = .ok data) file off (r :: rs))
    (hc : Holds (fun d raw data => filtered d raw = .ok data) AsIs file k (r :: rs) content) (henc : NoEntry r.dict b!"Encrypt")
    (a b : Nat) (catalog : List (Bytes × Obj)) (c : Option Bytes) (hroot : dictGet r.dict b!"Root" = some (.ref a b))
    (hcat : content a b = some (.dict catalog)) (hcls : DictKind catalog c)
    (page : List (Bytes × Obj)) (chain : List (List (Bytes × Category))) (ha : Ancestry content page chain) (hcons : Consistent chain) :
    ∃ F, ∀ fuel, F ≤ fuel → ∃ doc, openDocument filtered secure clamps fuel file = .ok (doc, .dict c catalog) ∧
      ∀ history : List (Nat × Nat), (∀ k ∈ history, content k.1 k.2 ≠ none) →
        ∃ kw, (∀ cat name, resource kw cat name = nearest chain cat name) ∧ ∃ F', ∀ fuel', F' ≤ fuel' →
          (fromPage (locate doc.env fuel) fuel' (asPage page) [] (asked doc.env fuel history doc.st)).1 = .ok kw := by
  obtain ⟨F, hF⟩ := openDocument_opens secure clamps file v k off r rs content hh hs hb hsec hc henc a b catalog c hroot hcat hcls
  refine ⟨F, fun fuel hf => ?_⟩
  obtain ⟨doc, e, _, _, I, hI, hd⟩ := hF fuel hf
  refine ⟨doc, e, fun history hh => ?_⟩
  obtain ⟨kw, h1, F', h2⟩ := C48_nearest (hd fuel hf) (some b!"Page") page chain ha hcons
  exact ⟨kw, h1, F', fun fuel' hf' => (h2 fuel' hf' _ (asked_keeps (hd fuel hf) history _ hI hh)).1⟩

/-! ### C93: what is written is read back -/

theorem dict_other (d : Draft) (prev : Option Nat) (key : Bytes) (h : key ≠ b!"Prev") : dictGet (d.dict prev) key = dictGet d.trailer key := by
  cases prev with
  | none => rfl
  | some p =>
    show dictGet (d.trailer ++ _) key = _
    induction d.trailer with
    | nil =>
      rw [List.nil_append]
      unfold dictGet
      rw [if_neg (fun e => h e.symm)]
      rfl
    | cons e es ih =>
      obtain ⟨k, v⟩ := e
      rw [List.cons_append, dictGet, dictGet, ih]

/-- C93: a file written as a sequence of revisions, each adding or replacing objects, is opened; the entries of the trailer are those of the
last revision, and every object is read back with the value which the last revision containing it gives it, whichever objects
were read before. -/
theorem C93_read_back (clamps : Bool) (older : List Draft) (last : Draft) (hok : ∀ d ∈ older ++ [last], d.Ok)
    (hsmall : (writeFile (older ++ [last])).length < 10 ^ 10) (hb : clamps = true ∨ 1024 ≤ (writeFile (older ++ [last])).length) :
    ∃ F, ∀ fuel, F ≤ fuel → ∃ o, openDoc filtered clamps fuel (writeFile (older ++ [last])) = .ok o ∧ o.version = b!"1.7" ∧
      (∀ key ∈ [b!"Size", b!"Root", b!"Encrypt", b!"Info", b!"ID"], ∀ v, dictGet last.trailer key = some v → dictGet o.trailer key = some v) ∧
      ∀ history : List (Nat × Nat), (∀ k ∈ history, contentOf (older ++ [last]) k.1 k.2 ≠ none) → ∀ n g x, contentOf (older ++ [last]) n g = some x →
        (locate o.env fuel n g (asked o.env fuel history o.st)).1 = .ok x := by
  have hne : older ++ [last] ≠ [] := by simp
  have hsec := sections_of _ hne hok hsmall (fun d raw data => filtered d raw = .ok data)
  have hc := holds_of (decoded := fun d raw data => filtered d raw = .ok data) _ hok
  obtain ⟨r, rs, e, prev, hdict⟩ := revs_cons older last fileHeader.length none
  rw [e] at hsec hc
  obtain ⟨F, hF⟩ := C90_delivered clamps _ _ 0 _ r rs _ (header_at _ hne) (starts_at _ hne) hb hsec hc
  refine ⟨F + rs.length + 1, fun fuel hf => ?_⟩
  obtain ⟨o, h1, h2, h3, _⟩ := C89_opens (filtered := filtered) clamps _ _ 0 _ r rs (header_at _ hne) (starts_at _ hne) hb hsec fuel (by omega)
  obtain ⟨o', h1', h4⟩ := hF fuel (by omega)
  rw [h1] at h1'
  cases h1'
  refine ⟨o, h1, h2, fun key hkey v hv => ?_, h4⟩
  refine (h3 key ?_).1 v ?_
  · simp only [List.mem_cons, List.not_mem_nil, or_false] at hkey ⊢
    rcases hkey with h | h | h | h | h <;> simp [h]
  · rw [hdict, dict_other, hv]
    simp only [List.mem_cons, List.not_mem_nil, or_false] at hkey
    rcases hkey with rfl | rfl | rfl | rfl | rfl <;> decide

/-- C93, for the pages: opening what was written gives the catalog and the pages, in the order of the page tree of the newest values. -/
theorem C93_pages_read_back (secure : Opened → Obj → Res Opened) (clamps : Bool) (older : List Draft) (last : Draft) (hok : ∀ d ∈ older ++ [last], d.Ok)
    (hsmall : (writeFile (older ++ [last])).length < 10 ^ 10) (hb : clamps = true ∨ 1024 ≤ (writeFile (older ++ [last])).length)
    (henc : NoEntry last.trailer b!"Encrypt") (a b : Nat) (catalog : List (Bytes × Obj)) (c : Option Bytes)
    (hroot : dictGet last.trailer b!"Root" = some (.ref a b)) (hcat : contentOf (older ++ [last]) a b = some (.dict catalog)) (hcls : DictKind catalog c)
    (n g : Nat) (node : List (Bytes × Obj)) (ps : List (List (Bytes × Obj))) (hpages : dictGet catalog b!"Pages" = some (.ref n g))
    (hnode : contentOf (older ++ [last]) n g = some (.dict node)) (htype : dictGet node b!"Type" = some (.name b!"Pages"))
    (htree : PageTree (contentOf (older ++ [last])) n g ps) :
    ∃ F, ∀ fuel, F ≤ fuel → ∃ doc, openDocument filtered secure clamps fuel (writeFile (older ++ [last])) = .ok (doc, .dict c catalog) ∧
      ∃ F', ∀ fuel', F' ≤ fuel' → ∃ s', docPages (locate doc.env fuel) fuel' (.dict c catalog) doc.st = (ps.map asPage, none, s') := by
  have hne : older ++ [last] ≠ [] := by simp
  have hsec := sections_of _ hne hok hsmall (fun d raw data => filtered d raw = .ok data)
  have hc := holds_of (decoded := fun d raw data => filtered d raw = .ok data) _ hok
  obtain ⟨r, rs, e, prev, hdict⟩ := revs_cons older last fileHeader.length none
  rw [e] at hsec hc
  refine C91_pages secure clamps _ _ 0 _ r rs _ (header_at _ hne) (starts_at _ hne) hb hsec hc ?_ a b catalog c ?_ hcat hcls n g node ps hpages hnode htype htree
  · unfold NoEntry
    rw [hdict, dict_other _ _ _ (by decide)]
    exact henc
  · rw [hdict, dict_other _ _ _ (by decide)]
    exact hroot

/-- A document with two pages; the second revision replaces the second page and adds a stream. -/
def firstDraft : Draft :=
  { items := [⟨1, 0, .dict [(b!"Type", .name b!"Catalog"), (b!"Pages", .ref 2 0)]⟩,
      ⟨2, 0, .dict [(b!"Type", .name b!"Pages"), (b!"Kids", .arr [.ref 3 0, .ref 4 0]), (b!"Count", .int 2)]⟩,
      ⟨3, 0, .dict [(b!"Type", .name b!"Page"), (b!"Parent", .ref 2 0), (b!"Rotate", .int (-90))]⟩,
      ⟨4, 0, .dict [(b!"Type", .name b!"Page"), (b!"Parent", .ref 2 0)]⟩],
    trailer := [(b!"Size", .int 5), (b!"Root", .ref 1 0)] }

def secondDraft : Draft :=
  { items := [⟨4, 0, .dict [(b!"Type", .name b!"Page"), (b!"Parent", .ref 2 0), (b!"Contents", .ref 5 0), (b!"UserUnit", .real 25 (-1))]⟩,
      ⟨5, 0, .stream [(b!"Length", .int 13)] b!"BT (a) Tj ET\n"⟩],
    trailer := [(b!"Size", .int 6), (b!"Root", .ref 1 0)] }

theorem drafts_ok : ∀ d ∈ [firstDraft] ++ [secondDraft], d.Ok := by
  intro d hd
  simp only [List.cons_append, List.nil_append, List.mem_cons, List.not_mem_nil, or_false] at hd
  rcases hd with rfl | rfl
  · exact ⟨by decide, by simp [firstDraft, WritableValue, Writable, WritableEnts, WritableItems], by simp [firstDraft], by decide, by decide, by decide,
      by simp [firstDraft, Writable, WritableEnts], by decide⟩
  · refine ⟨by decide, by simp [secondDraft, WritableValue, Writable, WritableEnts], ?_, by decide, by decide, by decide,
      by simp [secondDraft, Writable, WritableEnts], by decide⟩
    intro i hi e data h v hv
    simp [secondDraft] at hi
    rcases hi with rfl | rfl <;> simp at h
    rw [← h.1] at hv
    simp at hv

/-- What is written for it. -/
example : writeFile [firstDraft] = b!"%PDF-1.7\n1 0 obj\n<</Type /Catalog/Pages 2 0 R>>\nendobj\n2 0 obj\n<</Type /Pages/Kids [ 3 0 R 4 0 R]/Count 2>>\nendobj\n3 0 obj\n<</Type /Page/Parent 2 0 R/Rotate -90>>\nendobj\n4 0 obj\n<</Type /Page/Parent 2 0 R>>\nendobj\nxref\n1 1\n0000000009 00000 n \n2 1\n0000000055 00000 n \n3 1\n0000000115 00000 n \n4 1\n0000000170 00000 n \ntrailer\n<</Size 5/Root 1 0 R>>\nstartxref\n214\n%%EOF\n" := by
  decide +kernel

/-- The hypotheses of C91 and C93 are met: the replaced page is seen. -/
example (secure : Opened → Obj → Res Opened) :
    ∃ F, ∀ fuel, F ≤ fuel → ∃ doc, openDocument plain secure true fuel (writeFile ([firstDraft] ++ [secondDraft])) =
        .ok (doc, .dict (some b!"Catalog") [(b!"Type", .name b!"Catalog"), (b!"Pages", .ref 2 0)]) ∧
      ∃ F', ∀ fuel', F' ≤ fuel' → ∃ s', docPages (locate doc.env fuel) fuel' (.dict (some b!"Catalog") [(b!"Type", .name b!"Catalog"), (b!"Pages", .ref 2 0)]) doc.st =
        ([asPage [(b!"Type", .name b!"Page"), (b!"Parent", .ref 2 0), (b!"Rotate", .int (-90))],
          asPage [(b!"Type", .name b!"Page"), (b!"Parent", .ref 2 0), (b!"Contents", .ref 5 0), (b!"UserUnit", .real 25 (-1))]], none, s') :=
  C93_pages_read_back secure true [firstDraft] secondDraft drafts_ok (by decide +kernel) (Or.inl rfl) (Or.inl rfl) 1 0 _ _ rfl rfl
    (.typed _ rfl (by decide)) 2 0 _ [_, _] rfl rfl rfl
    (.node 2 0 _ [(3, 0), (4, 0)] _ rfl rfl (.direct _ _ rfl) (.cons 3 0 _ [_] _ (.page 3 0 _ rfl rfl) (.cons 4 0 _ [_] _ (.page 4 0 _ rfl rfl) .nil)))

end PdfReader
