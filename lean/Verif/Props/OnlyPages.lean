/-
  C123–C125: pages, the root and the types of any document, well-formed or not.
-/
import Verif.Props.File
import Verif.Props.Locate
import Verif.Lemmas.Viewer

namespace PdfReader

open Spec

/-- The class of every dictionary in the value, however deep in arrays, is the one its Type says. -/
inductive Classed : Val → Prop
  | atom (o : Obj) : Classed (.atom o)
  | dict (c : Option Bytes) (es : List (Bytes × Obj)) : (∀ t, c = some t → dictGet es b!"Type" = some (.name t)) → Classed (.dict c es)
  | stream (c : Bytes) (d : List (Bytes × Obj)) (data : Bytes) : Classed (.stream c d data)
  | arr (vs : List Val) : (∀ v ∈ vs, Classed v) → Classed (.arr vs)

/-- Whenever the computation gives something, it has this property. -/
def Only {σ α : Type} (P : α → Prop) (m : DM σ α) : Prop := ∀ s a s', m s = (.ok a, s') → P a

section
variable {σ : Type}

theorem only_pure {α : Type} {P : α → Prop} {a : α} (h : P a) : Only P (DM.pure (σ := σ) (.ok a)) := fun s b s' e => by cases e; exact h

theorem only_error {α : Type} {P : α → Prop} (x : Exc) : Only P (DM.pure (σ := σ) (.error x : Res α)) := fun s b s' e => by cases e

theorem only_bind {α β : Type} {P : α → Prop} {Q : β → Prop} {m : DM σ α} {f : α → DM σ β} (h1 : Only P m) (h2 : ∀ a, P a → Only Q (f a)) : Only Q (m.bind f) := by
  intro s b s' e
  obtain ⟨a, s1, e1, e2⟩ := DM.bind_ok e
  exact h2 a (h1 s a s1 e1) s1 b s' e2

theorem only_any {α : Type} (m : DM σ α) : Only (fun _ => True) m := fun _ _ _ _ => trivial

theorem only_mapM {α β : Type} {P : β → Prop} {f : α → DM σ β} : ∀ xs : List α, (∀ x ∈ xs, Only P (f x)) → Only (fun vs => ∀ v ∈ vs, P v) (DM.mapM f xs)
  | [], _ => fun s b s' e => by cases e; exact fun v hv => (by cases hv)
  | x :: xs, h => by
    refine only_bind (h x List.mem_cons_self) fun v hv => only_bind (only_mapM xs fun y hy => h y (List.mem_cons_of_mem _ hy)) fun vs hvs => only_pure ?_
    intro w hw
    rcases List.mem_cons.mp hw with rfl | hw
    · exact hv
    · exact hvs w hw

theorem dictClass_type {es : List (Bytes × Obj)} {c : Option Bytes} (h : dictClass es = .ok c) : ∀ t, c = some t → dictGet es b!"Type" = some (.name t) := by
  rintro t rfl
  unfold dictClass at h
  split at h
  · rename_i u hu
    split at h
    · cases h; exact hu
    · cases h
  · split at h <;> cases h
  · cases h

variable (loc : Locator σ)

mutual
theorem factory_classed : ∀ (fuel : Nat) (o : Obj), Only Classed (factory loc fuel o)
  | 0, _ => only_error _
  | fuel + 1, o => by
    unfold factory
    split
    · exact only_bind (only_mapM _ fun x _ => build_classed fuel [] x) fun vs hvs => only_pure (.arr vs hvs)
    · rename_i es
      intro s a s' e
      cases hc : dictClass es with
      | error x => rw [hc] at e; cases e
      | ok c => rw [hc] at e; cases e; exact .dict c es (dictClass_type hc)
    · rename_i d data
      intro s a s' e
      cases hc : streamClass d with
      | error x => rw [hc] at e; cases e
      | ok c => rw [hc] at e; cases e; exact .stream c d data
    · exact only_pure (.atom _)

theorem build_classed : ∀ (fuel : Nat) (visited : List Key) (o : Obj), Only Classed (build loc fuel visited o)
  | 0, _, _ => only_error _
  | fuel + 1, visited, o => by
    unfold build
    split
    · rename_i n g
      split
      · exact only_pure (.atom _)
      · refine only_bind (only_any _) fun x _ => only_bind (factory_classed fuel x) fun v hv => ?_
        cases hv with
        | arr vs h => exact only_bind (only_mapM vs fun w hw => rebuild_classed fuel ((n, g) :: visited) w (h w hw)) fun ws hws => only_pure (.arr ws hws)
        | atom o => exact only_pure (.atom o)
        | dict c es h => exact only_pure (.dict c es h)
        | stream c d data => exact only_pure (.stream c d data)
    · exact only_bind (only_mapM _ fun x _ => build_classed fuel visited x) fun vs hvs => only_pure (.arr vs hvs)
    · exact factory_classed fuel _

theorem rebuild_classed : ∀ (fuel : Nat) (visited : List Key) (v : Val), Classed v → Only Classed (rebuild loc fuel visited v)
  | 0, _, _, _ => only_error _
  | fuel + 1, visited, v, hv => by
    unfold rebuild
    cases hv with
    | atom o => exact build_classed fuel visited o
    | arr vs h => exact only_bind (only_mapM vs fun w hw => rebuild_classed fuel visited w (h w hw)) fun ws hws => only_pure (.arr ws hws)
    | dict c es h => exact only_pure (.dict c es h)
    | stream c d data => exact only_pure (.stream c d data)
end

theorem entry_classed (fuel : Nat) (es : List (Bytes × Obj)) (k : Bytes) : Only Classed (entry loc fuel es k) := by
  unfold entry
  split
  · exact only_pure (.atom _)
  · rename_i o _
    intro s a s' e
    have hb := build_classed loc fuel [] o s
    dsimp only at e
    generalize build loc fuel [] o s = r at hb e
    obtain ⟨r, s1⟩ := r
    cases r with
    | ok b =>
      obtain ⟨h1, h2⟩ := Prod.mk.inj e
      cases h1
      exact hb _ s1 rfl
    | error x => cases x <;> first | (cases e; exact .atom _) | cases e

theorem attr_classed (fuel : Nat) (v : Val) (k : Bytes) : Only Classed (attr loc fuel v k) := by
  unfold attr
  split
  · exact entry_classed loc fuel _ k
  · split
    · exact only_pure (.atom _)
    · exact build_classed loc fuel [] _
  · exact only_error _

/-- What a generator yields. -/
def Gen.Yielding {α : Type} (P : α → Prop) (g : Gen σ α) : Prop := ∀ s, ∀ x ∈ (g s).1, P x

theorem yielding_forEach {α β : Type} {P : α → Prop} {f : β → Gen σ α} : ∀ xs : List β, (∀ x ∈ xs, Gen.Yielding P (f x)) → Gen.Yielding P (Gen.forEach f xs)
  | [], _ => fun s x hx => by cases hx
  | y :: ys, h => by
    intro s x hx
    have i1 := h y List.mem_cons_self s
    have i2 := yielding_forEach ys fun z hz => h z (List.mem_cons_of_mem _ hz)
    unfold Gen.forEach Gen.seq at hx
    generalize f y s = r at i1 hx
    obtain ⟨zs, e, s1⟩ := r
    cases e with
    | some e => exact i1 x hx
    | none =>
      have i2 := i2 s1
      dsimp only at hx
      generalize Gen.forEach f ys s1 = r at i2 hx
      obtain ⟨ws, e, s2⟩ := r
      rcases List.mem_append.mp hx with hx | hx
      · exact i1 x hx
      · exact i2 x hx

/-- A page, by its Type. -/
def PageDict (v : Val) : Prop := ∃ es, v = .dict (some b!"Page") es ∧ dictGet es b!"Type" = some (.name b!"Page")

theorem isPage_dict {v : Val} (hc : Classed v) (h : isPage v = true) : PageDict v := by
  cases hc with
  | dict c es ht =>
    cases c with
    | none => cases h
    | some c =>
      have : c = b!"Page" := by simpa [isPage] using h
      subst this
      exact ⟨es, rfl, ht _ rfl⟩
  | atom o => cases h
  | arr vs _ => cases h
  | stream c d data => cases h

theorem pages_only (root : Val) : ∀ (fuel : Nat) (node : Val), Gen.Yielding PageDict (pages loc root fuel node)
  | 0, _ => fun s x hx => by cases hx
  | fuel + 1, node => by
    intro s x hx
    have ha := attr_classed loc fuel (orSelf root node) b!"Kids" s
    unfold pages at hx
    generalize attr loc fuel (orSelf root node) b!"Kids" s = r at ha hx
    obtain ⟨r, s1⟩ := r
    cases r with
    | error e => cases hx
    | ok v =>
      dsimp only at hx
      have hv := ha v s1 rfl
      cases hk : kidsOf v with
      | error e => rw [hk] at hx; cases hx
      | ok kids =>
        rw [hk] at hx
        refine yielding_forEach (P := PageDict) kids ?_ s1 x hx
        intro child hch
        have hcc : Classed child := by
          cases hv with
          | arr vs h => cases hk; exact h child hch
          | dict c es _ =>
            unfold kidsOf at hk
            dsimp only at hk
            split at hk <;> cases hk
            cases hch
          | stream c d data => cases hk
          | atom o =>
            unfold kidsOf at hk
            dsimp only at hk
            split at hk
            · split at hk <;> cases hk
              cases hch
            · split at hk <;> cases hk
              cases hch
            · split at hk <;> cases hk
              cases hch
            · cases hk
        split
        · rename_i hp
          intro s y hy
          rw [List.mem_singleton] at hy
          subst hy
          exact isPage_dict hcc hp
        · exact pages_only root fuel child

end

/-- Whatever the document answers when it is asked for its objects, and whatever its root is: what `pages()` yields, before it ends or fails, are dictionaries whose Type is Page. -/
theorem C123_only_pages {σ : Type} (loc : Locator σ) (fuel : Nat) (root : Val) (s : σ) (v : Val) (hv : v ∈ (docPages loc fuel root s).1) :
    ∃ es, v = asPage es ∧ dictGet es b!"Type" = some (.name b!"Page") := by
  unfold docPages at hv
  generalize attr loc fuel root b!"Pages" s = r at hv
  obtain ⟨r, s1⟩ := r
  cases r with
  | error e => cases hv
  | ok w =>
    cases w with
    | atom o => cases hv
    | arr vs => cases hv
    | stream c d data => cases hv
    | dict c es =>
      cases c with
      | none => cases hv
      | some c =>
        dsimp only at hv
        split at hv
        · exact pages_only loc _ fuel _ s1 v hv
        · cases hv

/-- The same for a file: any bytes which are opened. -/
theorem C123_file (filtered : List (Bytes × Obj) → Bytes → Res Bytes) (secure : Opened → Obj → Res Opened) (clamps : Bool) (fuel : Nat) (file : Bytes) (doc : Opened) (root : Val)
    (_ : openDocument filtered secure clamps fuel file = .ok (doc, root)) (fuel' : Nat) (v : Val) (hv : v ∈ (docPages (locate doc.env fuel) fuel' root doc.st).1) :
    ∃ es, v = asPage es ∧ dictGet es b!"Type" = some (.name b!"Page") := C123_only_pages _ fuel' root _ v hv

/-- Kids which are not pages: an annotation among them ends the iteration after the page before it. -/
def mixedKids : Store := fun n _ =>
  if n = 1 then some (.dict [(b!"Type", .name b!"Pages"), (b!"Kids", .arr [.ref 2 0, .ref 3 0, .ref 2 0])])
  else if n = 2 then some (.dict [(b!"Type", .name b!"Page")])
  else if n = 3 then some (.dict [(b!"Type", .name b!"Annot")]) else none

example : (docPages (sampleLoc mixedKids) 9 (.dict none [(b!"Pages", .ref 1 0)]) ()).1.map isPage = [true] ∧
    (docPages (sampleLoc mixedKids) 9 (.dict none [(b!"Pages", .ref 1 0)]) ()).2.1 = some .typeError := by decide +kernel

/-! ### C124: the root -/

/-- A document is opened only if the trailer has a reference as its Root, and its root is the object which is found there. -/
theorem C124_root (filtered : List (Bytes × Obj) → Bytes → Res Bytes) (secure : Opened → Obj → Res Opened) (clamps : Bool) (fuel : Nat) (file : Bytes) (doc : Opened) (root : Val)
    (h : openDocument filtered secure clamps fuel file = .ok (doc, root)) :
    ∃ n g before o found, dictGet doc.trailer b!"Root" = some (.ref n g) ∧ locate doc.env fuel n g before = (.ok o, found) ∧ factory (locate doc.env fuel) fuel o found = (.ok root, doc.st) := by
  unfold openDocument at h
  split at h
  · cases h
  · split at h
    · cases h
    · rename_i p _
      unfold docRoot at h
      cases hr : dictGet p.trailer b!"Root" with
      | none => rw [hr] at h; cases h
      | some x =>
        rw [hr] at h
        cases x with
        | ref n g =>
          dsimp only at h
          generalize e : DM.bind (locate p.env fuel n g) (fun o => factory (locate p.env fuel) fuel o) p.st = r at h
          obtain ⟨r, s⟩ := r
          cases r with
          | error x => cases h
          | ok v =>
            obtain ⟨rfl, rfl⟩ := Prod.mk.inj (Except.ok.inj h)
            obtain ⟨o, s1, e1, e2⟩ := DM.bind_ok e
            exact ⟨n, g, p.st, o, s1, hr, e1, e2⟩
        | _ => cases h

/-- Without a Root, or with a Root which is no reference, opening fails. -/
theorem C124_missing (filtered : List (Bytes × Obj) → Bytes → Res Bytes) (secure : Opened → Obj → Res Opened) (clamps : Bool) (fuel : Nat) (file : Bytes) (p : Opened)
    (ho : openDoc filtered clamps fuel file = .ok p) (he : NoEntry p.trailer b!"Encrypt") :
    (dictGet p.trailer b!"Root" = none → openDocument filtered secure clamps fuel file = .error .keyError) ∧
    (∀ x, dictGet p.trailer b!"Root" = some x → (∀ n g, x ≠ .ref n g) → openDocument filtered secure clamps fuel file = .error .attributeError) := by
  have ht : truthy ((dictGet p.trailer b!"Encrypt").getD .null) = false := by rcases he with e | e <;> rw [e] <;> rfl
  refine ⟨fun hr => ?_, fun x hr hx => ?_⟩
  · unfold openDocument
    rw [ho]
    dsimp only
    rw [ht]
    unfold docRoot
    simp only [Bool.false_eq_true, if_false]
    rw [hr]
    rfl
  · unfold openDocument
    rw [ho]
    dsimp only
    rw [ht]
    unfold docRoot
    simp only [Bool.false_eq_true, if_false]
    rw [hr]
    cases x with
    | ref n g => exact absurd rfl (hx n g)
    | _ => rfl

/-- A file without a Root. -/
def rootless : Bytes := b!"%PDF-1.4\nxref\n0 1\n0000000000 65535 f \ntrailer\n<</Size 1>>\nstartxref\n9\n%%EOF"

theorem rootless_opens : (openDoc plain true 10 rootless).map (·.trailer) = .ok [(b!"Size", .int 1)] := by decide +kernel

example (secure : Opened → Obj → Res Opened) : openDocument plain secure true 10 rootless = .error .keyError := by
  cases h : openDoc plain true 10 rootless with
  | error e => have := rootless_opens; rw [h] at this; cases this
  | ok p =>
    have ht : p.trailer = [(b!"Size", .int 1)] := by have := rootless_opens; rw [h] at this; exact Except.ok.inj this
    exact (C124_missing plain secure true 10 rootless p h (.inl (by rw [ht]; rfl))).1 (by rw [ht]; rfl)

/-! ### C125: Type -/

/-- A dictionary whose Type is a reference, whatever it refers to, cannot be read. -/
theorem C125_dict_counterexample {σ : Type} (loc : Locator σ) (fuel : Nat) (visited : List Key) (es : List (Bytes × Obj)) (n g : Nat) (h : dictGet es b!"Type" = some (.ref n g)) (s : σ) :
    build loc (fuel + 2) visited (.dict es) s = (.error .typeError, s) := by
  have hc : dictClass es = .error .typeError := by
    unfold dictClass
    rw [h]
    rfl
  show DM.pure ((dictClass es).map fun c => Val.dict c es) s = _
  rw [hc]
  rfl

/-- Nor can a stream. -/
theorem C125_stream_counterexample {σ : Type} (loc : Locator σ) (fuel : Nat) (visited : List Key) (d : List (Bytes × Obj)) (data : Bytes) (n g : Nat)
    (h : dictGet d b!"Type" = some (.ref n g)) (s : σ) : build loc (fuel + 2) visited (.stream d data) s = (.error .attributeError, s) := by
  have hc : streamClass d = .error .attributeError := by
    unfold streamClass
    rw [h]
    rfl
  show DM.pure ((streamClass d).map fun c => Val.stream c d data) s = _
  rw [hc]
  rfl

/-- So a page of which the Type is in another object ends the iteration over the pages. -/
def farType : Store := fun n _ =>
  if n = 1 then some (.dict [(b!"Type", .name b!"Pages"), (b!"Kids", .arr [.ref 2 0])])
  else if n = 2 then some (.dict [(b!"Type", .ref 3 0)])
  else if n = 3 then some (.name b!"Page") else none

theorem C125_page_counterexample : (docPages (sampleLoc farType) 9 (.dict none [(b!"Pages", .ref 1 0)]) ()).1.length = 0 ∧
    (docPages (sampleLoc farType) 9 (.dict none [(b!"Pages", .ref 1 0)]) ()).2.1 = some .typeError := by decide +kernel

/-- An entry which holds, or refers to, a dictionary with a name as Type is read, and is of the class of that name, if there is one. -/
theorem C125_direct_partial {σ : Type} {loc : Locator σ} {I : σ → Prop} {store : Store} (hd : Delivers loc I store) (es ds : List (Bytes × Obj)) (k t : Bytes) (o : Obj)
    (hk : dictGet es k = some o) (ho : o = .dict ds ∨ ∃ n g, o = .ref n g ∧ store n g = some (.dict ds)) (ht : dictGet ds b!"Type" = some (.name t)) :
    ∃ F, ∀ fuel, F ≤ fuel → Gives I (entry loc fuel es k) (.dict (if t ∈ dictTypes then some t else none) ds) := by
  have hc : DictKind ds (if t ∈ dictTypes then some t else none) := by
    split
    · exact .typed t ht ‹_›
    · exact .other t ht ‹_›
  refine entry_reads hd ⟨o, hk, ?_⟩
  rcases ho with rfl | ⟨n, g, rfl, hs⟩
  · exact .dict _ _ hc
  · exact .ref n g _ _ hs (fun _ _ e => by cases e) (.dict _ _ hc)

end PdfReader
