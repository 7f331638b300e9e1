/-
  C101: streams whose Length, listed or not, stands right behind them.
-/
import Verif.Lemmas.Behind
import Verif.Props.Hidden

namespace PdfReader
open Spec

variable {filtered : List (Bytes × Obj) → Bytes → Res Bytes}

theorem openDoc_seek {clamps : Bool} {fuel : Nat} {file : Bytes} {o : Opened} (h : openDoc filtered clamps fuel file = .ok o) : o.env.seek = fun _ off => off := by
  unfold openDoc at h
  split at h
  · cases h
  · split at h
    · cases h
    · split at h
      · cases h
      · cases h; rfl

theorem scene_of {file v : Bytes} {k : Nat} {r : Revision} {rs : List Revision} {es : List (Nat × Nat × Obj)} (hc : ScanFile file k (r :: rs) es) {o : Opened}
    (ho : OpenedAs filtered file v k r rs o) (hos : OnlySections o.st.reg (r :: rs)) (hpl : ∀ n g x, o.env.dec n g x = .ok x) {seek : St → Nat → Nat}
    (hs : SeeksWithin file seek) : ∃ tail, Scene { o.env with seek := seek } es (r :: rs) tail ∧ Ready { o.env with seek := seek } es (r :: rs) tail o.st := by
  obtain ⟨body, tail, hfile, hbody, htail⟩ := hc.body
  have scene : Scene { o.env with seek := seek } es (r :: rs) tail :=
    { dec := hpl, once := hc.once, noPack := fun e he => isObjStm_noPack (hc.noPack e he), listed := by
        intro r hr n off g h
        have := hc.listed r hr n off g h
        rw [← ho.file] at this
        exact this
      agree := ho.sections, seek := by rw [← ho.file] at hs; exact hs
      ends := ⟨fun c t e h => htail c t e (Or.inl h), fun c t e h => htail c t e (Or.inr h)⟩ }
  refine ⟨tail, scene, ?_, ho.stack, es, body, [], file.take k, rfl, hbody, ?_, ?_, by simp⟩
  · intro key v h
    obtain ⟨_, q, hq, e⟩ := hos key.1 key.2 v h
    exact (scene.value (hc.own q hq _ _ _ e)).symm
  · show o.env.file = _
    rw [ho.file, ← hfile, List.take_append_drop]
  · rw [ho.start, List.length_take]
    have := ho.inside
    omega

/-- C101: a file whose body is a sequence of objects, each defined once, is opened, and every reference is resolved to the object which the body
defines, and to null if it defines none; whatever was resolved before. Sections need not list the objects, and a stream may have its
Length in the object right behind it, listed or not. -/
theorem C101_delivered (clamps : Bool) (file v : Bytes) (k off : Nat) (r : Revision) (rs : List Revision) (es : List (Nat × Nat × Obj)) (hh : HeaderAt file v k)
    (hs : StartsAt file off) (hb : clamps = true ∨ 1024 ≤ file.length)
    (hsec : SectionsFrom (fun d raw data => filtered d raw = .ok data) file off (r :: rs)) (hc : ScanFile file k (r :: rs) es) :
    ∃ F, ∀ fuel, F ≤ fuel → ∃ o, openDoc filtered clamps fuel file = .ok o ∧
      ∀ seek, SeeksWithin file seek → ∀ (history : List (Nat × Nat)) (n g : Nat),
        (∀ x, (n, g, x) ∈ es → (locate { o.env with seek := seek } fuel n g (asked { o.env with seek := seek } fuel history o.st)).1 = .ok x) ∧
        ((∀ x, (n, g, x) ∉ es) → (locate { o.env with seek := seek } fuel n g (asked { o.env with seek := seek } fuel history o.st)).1 = .ok .null) := by
  refine ⟨file.length + 2 * (rs.length + 1) + 50, fun fuel hf => ?_⟩
  obtain ⟨o, e, ho, hos, hpl⟩ := openDoc_opens clamps file v k off r rs hh hs hb hsec fuel (by omega)
  refine ⟨o, e, fun seek hseek history n g => ?_⟩
  obtain ⟨tail, scene, ready⟩ := scene_of hc ho hos hpl hseek
  have hx : ({ o.env with seek := seek } : Env).xrefs.length = rs.length + 1 := (agree_all ho.sections).1
  have hfl : ({ o.env with seek := seek } : Env).file = file := ho.file
  have hfu : ({ o.env with seek := seek } : Env).file.length + 2 * ({ o.env with seek := seek } : Env).xrefs.length + 50 ≤ fuel := by rw [hx, hfl]; omega
  have hist : ∀ (history : List (Nat × Nat)) (s : St), Ready { o.env with seek := seek } es (r :: rs) tail s →
      Ready { o.env with seek := seek } es (r :: rs) tail (asked { o.env with seek := seek } fuel history s) := by
    intro history
    induction history with
    | nil => intro s h; exact h
    | cons k history ih =>
      intro s h
      obtain ⟨s', e', h'⟩ := locate_ready scene k.1 k.2 h fuel hfu
      have : asked { o.env with seek := seek } fuel (k :: history) s = asked { o.env with seek := seek } fuel history s' := by
        show asked _ fuel history (locate _ fuel k.1 k.2 s).2 = _
        rw [e']
      rw [this]
      exact ih s' h'
  obtain ⟨s', e', _⟩ := locate_ready scene n g (hist history o.st ready) fuel hfu
  refine ⟨fun x hx => ?_, fun hx => ?_⟩
  · rw [e', scene.value hx]
  · rw [e']
    unfold valueOf
    cases hd : firstDef es (n, g) with
    | none => rfl
    | some y => exact absurd (firstDef_mem hd) (hx y)

/-- What such a file contains. -/
def bodyContent (es : List (Nat × Nat × Obj)) : Spec.Content := fun n g => (es.find? fun e => e.1 == n && e.2.1 == g).map (·.2.2)

theorem bodyContent_first (es : List (Nat × Nat × Obj)) (n g : Nat) : bodyContent es n g = firstDef es (n, g) := by
  unfold bodyContent firstDef
  congr 2

/-- C101, for documents: such a file opens with the catalog named by the trailer, and then serves its content, so that its pages, their resources and
their texts are those of C91 to C96. -/
theorem C101_serves (secure : Opened → Obj → Res Opened) (clamps : Bool) (file v : Bytes) (k off : Nat) (r : Revision) (rs : List Revision)
    (es : List (Nat × Nat × Obj)) (hh : HeaderAt file v k) (hs : StartsAt file off) (hb : clamps = true ∨ 1024 ≤ file.length)
    (hsec : SectionsFrom (fun d raw data => filtered d raw = .ok data) file off (r :: rs)) (hc : ScanFile file k (r :: rs) es)
    (henc : NoEntry r.dict b!"Encrypt") (a b : Nat) (catalog : List (Bytes × Obj)) (c : Option Bytes) (hroot : dictGet r.dict b!"Root" = some (.ref a b))
    (hcat : (a, b, .dict catalog) ∈ es) (hcls : DictKind catalog c) :
    Serves filtered (fun _ => secure) clamps file v r.dict c catalog (bodyContent es) := by
  refine ⟨file.length + 2 * (rs.length + 1) + 50, fun fuel hf => ?_⟩
  obtain ⟨o, e, ho, hos, hpl⟩ := openDoc_opens clamps file v k off r rs hh hs hb hsec fuel (by omega)
  have hsk : o.env.seek = fun _ off => off := openDoc_seek e
  obtain ⟨tail, scene, ready⟩ := scene_of hc ho hos hpl (seeks_default file)
  rw [← hsk] at scene ready
  have hx : o.env.xrefs.length = rs.length + 1 := (agree_all ho.sections).1
  have hd : ∀ f', file.length + 2 * (rs.length + 1) + 50 ≤ f' → Delivers (locate o.env f') (Ready o.env es (r :: rs) tail) (bodyContent es) := by
    intro f' hf' n g x s hs hx'
    obtain ⟨s', e', h'⟩ := locate_ready scene n g hs f' (by rw [hx, ho.file]; omega)
    rw [bodyContent_first] at hx'
    unfold valueOf at e'
    rw [hx'] at e'
    rw [e']
    exact ⟨rfl, h'⟩
  have he : truthy ((dictGet o.trailer b!"Encrypt").getD .null) = false := by
    have : NoEntry o.trailer b!"Encrypt" := by
      obtain ⟨t1, t2⟩ := ho.trailer b!"Encrypt" (by decide)
      rcases henc with h | h
      · exact t2 h
      · exact Or.inr (t1 _ h)
    rcases this with h | h <;> rw [h] <;> rfl
  obtain ⟨h1, h2⟩ := openDocument_root (secure := secure) (o' := o) e (by rw [he]; rfl) ready (hd fuel hf) ((ho.trailer b!"Root" (by decide)).1 _ hroot)
    (by rw [bodyContent_first]; exact first_of_mem es hc.once _ _ _ hcat) hcls (by omega)
  exact ⟨_, h1, ho.version, ho.trailer, _, h2, fun f' hf' => hd f' hf'⟩

/-! ### A file for the example -/

/-- A stream and, behind it, its Length; no section lists them. -/
def behindStream : Bytes := b!"5 0 obj\n<</Length 6 0 R>>\nstream\nBT (a) Tj ET\n\nendstream\nendobj"

def behindFront : Bytes := fileHeader ++ (behindStream ++ ([10] ++ (showItem ⟨6, 0, .int 13⟩ ++ [10])))

def behindDraft : Draft := { items := [⟨1, 0, .dict [(b!"Type", .name b!"Catalog")]⟩], trailer := [(b!"Root", .ref 1 0)] }

def behindFile : Bytes := behindFront ++ behindDraft.show behindFront.length none

def behindObjects : List (Nat × Nat × Obj) :=
  [(5, 0, .stream [(b!"Length", .int 13)] b!"BT (a) Tj ET\n"), (6, 0, .int 13), (1, 0, .dict [(b!"Type", .name b!"Catalog")])]

theorem behind_ok : behindDraft.Ok := by
  refine ⟨by decide, by simp [behindDraft, WritableValue, Writable, WritableEnts], ?_, by decide, by decide, by decide, ⟨trivial, trivial⟩, by decide⟩
  intro i hi e data h v hv
  simp [behindDraft] at hi
  subst hi
  cases h

theorem behind_text : LenText 6 0 13 5 0 (.stream [(b!"Length", .int 13)] b!"BT (a) Tj ET\n") behindStream :=
  .mk b!"5" b!"0" [32] [32] [10] [10] [(b!"Length", .ref 6 0)] b!"/Length 6 0 R" [10] [10] b!"BT (a) Tj ET\n" [10] (digits1 _ rfl) (digits1 _ rfl) sepSp (by simp) sepSp (by simp)
    sep_lf sep_lf (den_ents [(b!"Length", .ref 6 0)] ⟨trivial, trivial⟩) sep_lf (Or.inl rfl) (by simp [WS]) rfl

theorem behind_item : IndText 6 0 (.int (13 : Nat)) (showItem ⟨6, 0, .int 13⟩) := item_text ⟨6, 0, .int 13⟩ trivial

theorem behind_length : behindFile.length < 10 ^ 10 := by decide +kernel

theorem behind_header : HeaderAt behindFile b!"1.7" 0 := by
  refine ⟨[], b!"%PDF-1.7", [10] ++ (behindStream ++ ([10] ++ (showItem ⟨6, 0, .int 13⟩ ++ [10])) ++ behindDraft.show behindFront.length none), ?_, rfl, ?_, Or.inl rfl,
    fun a h' b v' _ _ => Nat.zero_le _, by simp, ?_⟩
  · unfold behindFile behindFront fileHeader
    simp
  · exact .pdf b!"1.7" ⟨49, 55, by simp [Digit], by simp [Digit], rfl⟩
  · decide +kernel

def behindOff : Nat := behindFront.length + (showBody behindDraft.items).length

theorem behind_starts : StartsAt behindFile behindOff := by
  refine starts_of (body := behindFront ++ (showBody behindDraft.items ++ (b!"xref" ++ ([10] ++ (showTable behindFront.length behindDraft.items ++ ([] ++ (b!"trailer" ++ ([10] ++ (60 :: 60 ::
    (showEnts (behindDraft.dict none) ++ 62 :: 62 :: [10])))))))))) ?_ (by simp [behindFront, fileHeader])
  unfold behindFile Draft.show behindOff
  simp

theorem behind_sections (decoded : List (Bytes × Obj) → Bytes → Bytes → Prop) : SectionsFrom decoded behindFile behindOff [revOf behindDraft behindFront.length none] := by
  have h := table_at (d := behindDraft) (file := behindFile) (P := behindFront) (Q := []) (start := behindFront.length) (prev := none) behind_ok
    (by rw [List.append_nil]; unfold behindFile; rfl) rfl behind_length
  exact Or.inl (.oldest _ _ h (dict_noPrev behind_ok))

theorem behind_catalog : behindFile.drop behindFront.length = showItem ⟨1, 0, .dict [(b!"Type", .name b!"Catalog")]⟩ ++ behindFile.drop (behindOff - 1) := by decide +kernel

theorem behind_drop : behindFile.drop 0 = (fileHeader ++ (behindStream ++ ([10] ++ (showItem ⟨6, 0, .int 13⟩ ++
    ([10] ++ (showItem ⟨1, 0, .dict [(b!"Type", .name b!"Catalog")]⟩ ++ [10])))))) ++ behindFile.drop behindOff := by decide +kernel

theorem behind_xref : (behindFile.drop behindOff).head? = some 120 := by decide +kernel

theorem behind_listed : ∀ n, (revOf behindDraft behindFront.length none).inUse n = if n = 1 then some (behindFront.length, 0) else none := by
  intro n
  show lastEnt (entsOf behindFront.length behindDraft.items) true n = _
  unfold lastEnt
  show Option.map _ (List.find? _ [(1, (⟨behindFront.length, 0, true⟩ : Ent))]) = _
  by_cases h : n = 1
  · subst h; rfl
  · rw [if_neg h, List.find?_cons_of_neg (by simpa using fun e => h e.symm)]
    rfl

theorem behind_scan : ScanFile behindFile 0 [revOf behindDraft behindFront.length none] behindObjects where
  body := by
    refine ⟨_, behindFile.drop behindOff, behind_drop, ?_, ?_⟩
    · exact .behind 5 0 _ 6 0 13 _ fileHeader behindStream [10] _ _ (.comment b!"PDF-1.7" 10 [] (by simp [Eol]) (Or.inl rfl) .nil) behind_text
        (ends_once (by decide +kernel)) sep_lf behind_item
        (.plain 1 0 _ [] [10] _ [10] sep_lf (item_text ⟨1, 0, .dict [(b!"Type", .name b!"Catalog")]⟩ (by exact ⟨by decide, trivial, trivial⟩)) (.nil [10] sep_lf))
    · intro c t e h
      have := behind_xref
      rw [e] at this
      cases this
      revert h
      simp [SepChar, WS, Digit]
  once := by decide
  noPack := by
    intro e he d raw v h1 h2
    simp only [behindObjects, List.mem_cons, List.not_mem_nil, or_false] at he
    rcases he with rfl | rfl | rfl <;> cases h1
    cases h2
  listed := by
    intro r hr n off g h
    rw [List.mem_singleton] at hr
    subst hr
    rw [behind_listed] at h
    split at h
    · rename_i e
      subst e
      cases h
      exact ⟨_, by simp [behindObjects], _, _, behind_catalog, Or.inl (item_text ⟨1, 0, .dict [(b!"Type", .name b!"Catalog")]⟩ (by exact ⟨by decide, trivial, trivial⟩))⟩
    · cases h
  own := by
    intro r hr n g v h
    rw [List.mem_singleton] at hr
    subst hr
    cases h

/-- The hypotheses of C101 are met: the stream is read, whatever was read before. -/
example (filtered : List (Bytes × Obj) → Bytes → Res Bytes) : ∃ F, ∀ fuel, F ≤ fuel → ∃ o, openDoc filtered true fuel behindFile = .ok o ∧
    ∀ seek, SeeksWithin behindFile seek → ∀ history,
      (locate { o.env with seek := seek } fuel 5 0 (asked { o.env with seek := seek } fuel history o.st)).1 = .ok (.stream [(b!"Length", .int 13)] b!"BT (a) Tj ET\n") := by
  obtain ⟨F, hF⟩ := C101_delivered (filtered := filtered) true behindFile b!"1.7" 0 behindOff _ [] behindObjects behind_header behind_starts (Or.inl rfl) (behind_sections _) behind_scan
  refine ⟨F, fun fuel hf => ?_⟩
  obtain ⟨o, h1, h2⟩ := hF fuel hf
  exact ⟨o, h1, fun seek hs history => (h2 seek hs history 5 0).1 _ (by simp [behindObjects])⟩

example (filtered : List (Bytes × Obj) → Bytes → Res Bytes) (secure : Opened → Obj → Res Opened) :
    Serves filtered (fun _ => secure) true behindFile b!"1.7" [(b!"Root", .ref 1 0)] (some b!"Catalog") [(b!"Type", .name b!"Catalog")] (bodyContent behindObjects) :=
  C101_serves secure true behindFile b!"1.7" 0 behindOff _ [] behindObjects behind_header behind_starts (Or.inl rfl) (behind_sections _) behind_scan (Or.inl rfl)
    1 0 _ _ rfl (by simp [behindObjects]) (.typed _ rfl (by decide))

end PdfReader
