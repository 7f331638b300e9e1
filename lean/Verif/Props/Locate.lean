/-
  C29, C31-C34, C59, C60: resolution of indirect references.
-/
import Verif.Lemmas.Resolve

namespace PdfReader

open Spec

/-! ### Histories -/

/-- What a program does with an open document: resolve a reference, or read the indirect object at an offset
(`locate_backwards_from_trailer`, document.py:551-581). The first number is the fuel. -/
inductive Op where
  | resolve (fuel num gen : Nat)
  | read (fuel off : Nat)

/-- The state after a sequence of operations, whether they succeed or raise. -/
def run (env : Env) : List Op → St → St
  | [], s => s
  | .resolve fuel num gen :: ops, s => run env ops (locate env fuel num gen s).2
  | .read fuel off :: ops, s => run env ops (objectAt env fuel off s).2

theorem run_knows (env : Env) (ops : List Op) : ∀ s, Knows s (run env ops s) := by
  induction ops with
  | nil => intro s k v h; exact h
  | cons op ops ih =>
    intro s
    cases op with
    | resolve fuel num gen => exact Knows.trans (locate_mono env fuel num gen s).reg (ih _)
    | read fuel off => exact Knows.trans (objectAt_mono env fuel off s).reg (ih _)

/-! ### C31 -/

/-- C31: once a reference was resolved to `v`, then after any further operations, successful or not, resolving it
again succeeds and gives `v`. -/
theorem C31_resolved_again (env : Env) (fuel n g : Nat) (s s1 : St) (v : Obj) (h : locate env fuel n g s = (.ok v, s1)) (ops : List Op) :
    ∃ F s2, ∀ f, F ≤ f → locate env f n g (run env ops s1) = (.ok v, s2) := by
  obtain ⟨F, s2, _, h2⟩ := (again_all env fuel).2 n g s v s1 h (run env ops s1) (run_knows env ops s1)
  exact ⟨F, s2, h2⟩

/-- C31, with any amount of fuel: resolving again never gives another object. -/
theorem C31_never_another (env : Env) (fuel fuel' n g : Nat) (s s1 s2 : St) (v w : Obj) (ops : List Op)
    (h : locate env fuel n g s = (.ok v, s1)) (h' : locate env fuel' n g (run env ops s1) = (.ok w, s2)) : w = v := by
  have h1 := run_knows env ops s1 _ _ (locate_ok h)
  have h2 := (locate_mono env fuel' n g (run env ops s1)).reg _ _ h1
  rw [h'] at h2
  have h3 := locate_ok h'
  simp only at h2
  rw [h2] at h3
  cases h3
  rfl

/-! ### Two revisions of a file -/

/-- Object 1 0 is `(old)` in the first revision and `(new)` in the second. -/
def updated : Bytes := b!"%PDF-1.4\n1 0 obj\n(old)\nendobj\nxref\n0 2\n0000000000 65535 f \n0000000009 00000 n \ntrailer\n<</Size 2>>\n1 0 obj\n(new)\nendobj\nxref\n1 1\n0000000099 00000 n \ntrailer\n<</Size 2/Prev 30>>\nstartxref\n120\n%%EOF\n"

/-- Object 1 0 is `(old)` in the first revision and freed in the second. -/
def freed : Bytes := b!"%PDF-1.4\n1 0 obj\n(old)\nendobj\nxref\n0 2\n0000000000 65535 f \n0000000009 00000 n \ntrailer\n<</Size 2>>\nxref\n1 1\n0000000000 00001 f \ntrailer\n<</Size 2/Prev 30>>\nstartxref\n99\n%%EOF\n"

def plain (_ : List (Bytes × Obj)) (raw : Bytes) : Res Bytes := .ok raw

def updatedEnv : Env :=
  { file := updated, filtered := plain,
    xrefs := [{ inUse := [(1, ⟨99, 0⟩)] }, { free := [(0, ⟨0, 65535⟩)], inUse := [(1, ⟨9, 0⟩)] }] }

def freedEnv : Env :=
  { file := freed, filtered := plain,
    xrefs := [{ free := [(1, ⟨0, 1⟩)] }, { free := [(0, ⟨0, 65535⟩)], inUse := [(1, ⟨9, 0⟩)] }] }

/-- What opening computes for the two files. -/
theorem updated_opens : (openDoc plain true 10 updated).map (fun p => (p.env.xrefs, p.st)) =
    .ok (updatedEnv.xrefs, { reg := [], bf := 0, stack := [] }) := by decide +kernel

theorem freed_opens : (openDoc plain true 10 freed).map (fun p => (p.env.xrefs, p.st)) =
    .ok (freedEnv.xrefs, { reg := [], bf := 0, stack := [] }) := by decide +kernel

def fresh : St := { reg := [], bf := 0, stack := [] }

/-- The hypothesis of C31 is met. -/
example : (locate updatedEnv 10 1 0 fresh).1 = .ok (.str b!"new") := by decide +kernel

/-- A falsy object is read again, with the same result. -/
example : let env : Env := { file := b!"1 0 obj 0 endobj x", xrefs := [{ inUse := [(1, ⟨0, 0⟩)] }], filtered := plain }
    (locate env 10 1 0 fresh).1 = .ok (.int 0) ∧ (locate env 10 1 0 (run env [.resolve 9 1 0] fresh)).1 = .ok (.int 0) := by
  decide +kernel

/-! ### C29 -/

/-- C29, what holds: an object not met before resolves to the definition at the offset given by the newest section
which lists it as in use with this generation, when that definition is an object or a stream with a direct Length.
Missing: sections which list it as free (see the counterexample) or as compressed are passed over. -/
theorem C29_newest_listed_partial (env : Env) (newer older : List XRef) (x : XRef) (n g off : Nat) (o w : Obj) (t rest : Bytes) (s : St)
    (hx : env.xrefs = newer ++ x :: older) (hnewer : ∀ y ∈ newer, ¬ ∃ e, natGet y.inUse n = some e ∧ e.gen = g)
    (he : natGet x.inUse n = some ⟨off, g⟩) (ht : IndText n g o t) (hd : env.file.drop off = t ++ rest)
    (hdec : env.dec n g o = .ok w) (hw : isObjStm w = false) (hs : regGet s.reg (n, g) = none) (fuel : Nat)
    (hfuel : newer.length + 4 ≤ fuel) :
    (locate env fuel n g s).1 = .ok w := by
  rw [locate_listed env newer older x n g ⟨off, g⟩ o w t rest s hx hnewer he rfl ht hd hdec hw hs fuel hfuel]

theorem sep_lf : Sep [10] := .ws 10 [] (by simp [WS]) .nil

theorem digits1 (c : Byte) (h : isDigit c = true) : Digits [c] :=
  ⟨by simp, by intro d hd; rw [List.mem_singleton] at hd; subst hd; exact (digit_iff _).mpr h⟩

theorem sepSp : Sep [32] := .ws 32 [] (by simp [WS]) .nil

theorem new_text : IndText 1 0 (.str b!"new") b!"1 0 obj\n(new)\nendobj" :=
  .mk b!"1" b!"0" [32] [32] [10] [10] _ b!"(new)" (digits1 _ rfl) (digits1 _ rfl) sepSp (by simp) sepSp (by simp) sep_lf
    (.obj _ _ (.str b!"new" b!"new" (.plain 110 _ _ (by decide) (by decide) (by decide) (by decide)
      (.plain 101 _ _ (by decide) (by decide) (by decide) (by decide) (.plain 119 _ _ (by decide) (by decide) (by decide) (by decide) .nil)))))
    sep_lf (by simp)

/-- The hypotheses are met by the updated file. -/
example (fuel : Nat) (h : 4 ≤ fuel) : (locate updatedEnv fuel 1 0 fresh).1 = .ok (.str b!"new") :=
  C29_newest_listed_partial updatedEnv [] _ _ 1 0 99 (.str b!"new") _ _ (updatedEnv.file.drop 119) fresh rfl (by simp) rfl new_text (by decide +kernel)
    rfl rfl rfl fuel h

/-- C29 is false: an object which the newest section marks as free still resolves to its old definition. -/
theorem C29_free_counterexample : (locate freedEnv 10 1 0 fresh).1 = .ok (.str b!"old") := by decide +kernel

/-! ### C32 -/

/-- Only references are resolved. -/
def OnlyResolves (ops : List Op) : Prop := ∀ op ∈ ops, ∃ fuel n g, op = .resolve fuel n g

theorem run_inv {env : Env} {start : Nat} {reg0 : List (Key × Obj)} (ops : List Op) : ∀ s, Inv env start reg0 s → OnlyResolves ops →
    Inv env start reg0 (run env ops s) := by
  induction ops with
  | nil => intro s h _; exact h
  | cons op ops ih =>
    intro s h ho
    obtain ⟨fuel, n, g, rfl⟩ := ho op List.mem_cons_self
    exact ih _ (locate_inv h fuel n g) (fun op hop => ho op (List.mem_cons_of_mem _ hop))

theorem start_inv (env : Env) (s : St) : Inv env s.bf s.reg s := ⟨fun k v h => Or.inr (.known k v h), .start⟩

/-- C32, what holds: if the file has only one definition of each object, a reference which resolves to something other
than null resolves to the same object, whatever was resolved before. Missing: files with several definitions
of an object (incremental updates), see the counterexample. -/
theorem C32_unique_definitions_partial (env : Env) (s0 : St) (ops ops' : List Op) (fuel fuel' n g : Nat) (v v' : Obj)
    (huniq : ∀ w w', Source env s0.bf s0.reg (n, g) w → Source env s0.bf s0.reg (n, g) w' → w = w')
    (ho : OnlyResolves ops) (ho' : OnlyResolves ops')
    (h : (locate env fuel n g (run env ops s0)).1 = .ok v) (h' : (locate env fuel' n g (run env ops' s0)).1 = .ok v')
    (hv : v ≠ .null) (hv' : v' ≠ .null) : v = v' := by
  have key : ∀ (ops : List Op) (fuel : Nat) (v : Obj), OnlyResolves ops → (locate env fuel n g (run env ops s0)).1 = .ok v → v ≠ .null →
      Source env s0.bf s0.reg (n, g) v := by
    intro ops fuel v ho h hv
    have hi := locate_inv (run_inv ops s0 (start_inv env s0) ho) fuel n g
    have := locate_ok (s' := (locate env fuel n g (run env ops s0)).2) (Prod.ext h rfl)
    rcases hi.reg _ _ this with h | h
    · exact absurd h hv
    · exact h
  exact huniq _ _ (key ops fuel v ho h hv) (key ops' fuel' v' ho' h' hv')

/-- C32 is false: in an updated file, resolving an unknown reference first makes object 1 0 resolve to its old
definition. -/
theorem C32_counterexample :
    (locate updatedEnv 20 1 0 (run updatedEnv [] fresh)).1 = .ok (.str b!"new") ∧
    (locate updatedEnv 20 1 0 (run updatedEnv [.resolve 20 9 0] fresh)).1 = .ok (.str b!"old") := by
  decide +kernel

/-! ### C33 -/

/-- C33: a reference to an object of which the file has no definition can only resolve to null, and then keeps
resolving to null whatever is done. -/
theorem C33_unknown_is_null (env : Env) (s0 : St) (ops : List Op) (fuel n g : Nat) (v : Obj) (s1 : St) (ho : OnlyResolves ops)
    (hnone : ∀ w, ¬ Source env s0.bf s0.reg (n, g) w) (h : locate env fuel n g (run env ops s0) = (.ok v, s1)) :
    v = .null ∧ ∀ ops', ∃ F s2, ∀ f, F ≤ f → locate env f n g (run env ops' s1) = (.ok .null, s2) := by
  have hi := locate_inv (run_inv ops s0 (start_inv env s0) ho) fuel n g
  have hk := locate_ok h
  rw [h] at hi
  have hv : v = .null := by
    rcases hi.reg _ _ hk with h | h
    · exact h
    · exact absurd h (hnone v)
  subst hv
  exact ⟨rfl, fun ops' => C31_resolved_again env fuel n g _ s1 _ h ops'⟩

/-- C59 and C33: a document whose body is a sequence of indirect objects (no object streams, Lengths direct) up to something
that starts no element, such as `xref`. A reference which no section lists as in use resolves to the first
definition in the body, and to null if there is none. -/
theorem C59_unlisted_found_by_scan (env : Env) (hdec : ∀ n g v, env.dec n g v = .ok v) (es : List (Nat × Nat × Obj))
    (start body tail : Bytes) (hbody : BodyText es body) (hfile : env.file = start ++ (body ++ tail))
    (htail : NotStart (fun c => WS c ∨ c = 37 ∨ Digit c ∨ c = 115 ∨ c = 116) tail) (hos : ∀ e ∈ es, isObjStm e.2.2 = false)
    (n g : Nat) (hlist : ∀ x ∈ env.xrefs, ¬ ∃ e, natGet x.inUse n = some e ∧ e.gen = g) (fuel : Nat)
    (hfuel : env.xrefs.length + es.length + 8 ≤ fuel) :
    (locate env fuel n g { reg := [], bf := start.length, stack := [] }).1 =
      .ok (((es.find? (fun e => (e.1, e.2.1) == (n, g))).map (·.2.2)).getD .null) := by
  obtain ⟨f, rfl⟩ : ∃ f, fuel = (f + 1 + env.xrefs.length) + 1 := ⟨fuel - env.xrefs.length - 2, by omega⟩
  have hnew : regGet ([] : List (Key × Obj)) (n, g) = none := rfl
  rw [locate]
  rw [hnew]
  dsimp only
  rw [byXref_unlisted env n g _ env.xrefs f hlist]
  dsimp only
  refine bruteForce_scan env hdec n g tail ⟨?_, ?_⟩ es body start _ hbody hfile rfl hos (by simp) rfl _ (by omega)
  · intro c t e hc
    exact htail c t e (by
      rcases hc with h | h
      · exact Or.inl h
      · exact Or.inr (Or.inl h))
  · intro c t e hc
    exact htail c t e (Or.inr (Or.inr hc))

/-- A body with two objects. -/
def scanned : Bytes := b!"%PDF-1.4\n1 0 obj\n(new)\nendobj\n2 0 obj null endobj xref"

theorem scanned_body : BodyText [(1, 0, .str b!"new"), (2, 0, .null)] b!"%PDF-1.4\n1 0 obj\n(new)\nendobj\n2 0 obj null endobj " := by
  have t2 : IndText 2 0 .null b!"2 0 obj null endobj" :=
    .mk b!"2" b!"0" [32] [32] [32] [32] _ b!"null" (digits1 _ rfl) (digits1 _ rfl) sepSp (by simp) sepSp (by simp) sepSp
      (.obj _ _ .null) sepSp (by simp)
  exact .cons 1 0 _ _ b!"%PDF-1.4\n" b!"1 0 obj\n(new)\nendobj" b!"\n2 0 obj null endobj "
    (.comment b!"PDF-1.4" 10 [] (by simp [Eol]) (Or.inl rfl) .nil) new_text
    (.cons 2 0 _ _ [10] b!"2 0 obj null endobj" [32] sep_lf t2 (.nil _ sepSp))

example : let env : Env := { file := scanned, xrefs := [], filtered := plain }
    (locate env 10 1 0 fresh).1 = .ok (.str b!"new") ∧ (locate env 10 3 0 fresh).1 = .ok .null := by
  intro env
  have hx : NotStart (fun c => WS c ∨ c = 37 ∨ Digit c ∨ c = 115 ∨ c = 116) b!"xref" :=
    notStart_mk (by simp [WS, Digit])
  exact ⟨C59_unlisted_found_by_scan env (fun _ _ _ => rfl) _ [] _ b!"xref" scanned_body rfl hx (by simp [isObjStm]) 1 0 (by simp [env]) 10 (by decide),
    C59_unlisted_found_by_scan env (fun _ _ _ => rfl) _ [] _ b!"xref" scanned_body rfl hx (by simp [isObjStm]) 3 0 (by simp [env]) 10 (by decide)⟩

/-- C33 as stated is false of files which end with `%%EOF` without a line end, when no `xref` stops the scan: an unknown
reference raises TypeError. -/
theorem C33_counterexample :
    let env : Env := { file := b!"%PDF-1.5\n1 0 obj\n(a)\nendobj\nstartxref\n9\n%%EOF", xrefs := [], filtered := plain }
    (locate env 20 9 0 fresh).1 = .error .typeError := by
  decide +kernel

/-! ### C34 -/

/-- C34: registering an object stream whose directory lists the pairs `ms` and which has the object `os[i]` at the offset
given by `ms[i]` makes exactly these objects known, with generation 0; objects known before keep their
value, and of two members with the same number the first counts. -/
theorem C34_members (env : Env) (n g first : Nat) (d : List (Bytes × Obj)) (raw dir rest : Bytes) (ms : List (Nat × Nat)) (os : List Obj)
    (s : St) (htype : dictGet d b!"Type" = some (.name b!"ObjStm")) (hN : dictGet d b!"N" = some (.int ms.length))
    (hF : dictGet d b!"First" = some (.int first)) (hdata : env.filtered d raw = .ok (dir ++ rest)) (hdir : DirText ms dir) (hrest : Stop rest)
    (hlen : ms.length = os.length) (hobj : ∀ p ∈ ms.zip os, ObjectAt (dir ++ rest) (first + p.1.2) p.2)
    (hs : regGet s.reg (n, g) = none) (fuel : Nat) (hfuel : ms.length + 3 ≤ fuel) :
    ∃ s', register env fuel n g (.stream d raw) s = (.ok (), s') ∧
      ∀ num gen, regGet s'.reg (num, gen) =
        if (num, gen) = (n, g) then some (.stream d raw)
        else match regGet s.reg (num, gen) with
          | some v => some v
          | none => if gen = 0 then (((ms.map (·.1)).zip os).find? (fun m => m.1 == num)).map (·.2) else none := by
  obtain ⟨f, rfl⟩ : ∃ f, fuel = f + 1 := ⟨fuel - 1, by omega⟩
  obtain ⟨ks, hk, hp⟩ := objStmInts_text rest hrest ms dir hdir
  obtain ⟨s', h1, _, _, h4⟩ := registerAll_text env (dir ++ rest) first ms os (s.put (n, g) (.stream d raw)) f hlen hobj (by omega)
  refine ⟨s', ?_, ?_⟩
  · rw [register, hs]
    dsimp only
    have ho : isObjStm (.stream d raw) = true := by
      unfold isObjStm
      dsimp only
      rw [htype]
      rfl
    have hdirOk : objStmDir env.filtered d raw = .ok (dir ++ rest, .int first, ms) := by
      unfold objStmDir
      rw [hdata, hF, hN]
      dsimp only [countOf]
      rw [Int.toNat_natCast, hk]
      dsimp only
      rw [hp]
    rw [if_pos ho, hdirOk]
    dsimp only
    exact h1
  · intro num gen
    rw [h4]
    unfold St.put
    simp only [regGet]
    by_cases e : (n, g) = (num, gen)
    · rw [if_pos e, if_pos e.symm]
    · have e' : ¬ (num, gen) = (n, g) := fun h => e h.symm
      simp only [if_neg e, if_neg e']
      rfl

/-- An object stream with two members. -/
example : let d := [(b!"Type", .name b!"ObjStm"), (b!"N", .int 2), (b!"First", .int 8)]
    let raw := b!"4 0 5 5 null true "
    let env : Env := { file := [], xrefs := [], filtered := plain }
    ∃ s', register env 5 7 0 (.stream d raw) fresh = (.ok (), s') ∧ regGet s'.reg (4, 0) = some .null ∧
      regGet s'.reg (5, 0) = some (.bool true) := by
  intro d raw env
  have f4 : Follow true .null [32] b!"true " :=
    ⟨sepSp, notSep_byte rfl (by decide), fun _ => sep_stop sepSp (by simp), (by rintro _ ⟨n, h⟩; cases h), (by rintro ⟨d, h⟩; cases h)⟩
  have f5 : Follow true (.bool true) [32] [] :=
    ⟨sepSp, notStart_nil, fun _ => sep_stop sepSp (by simp), (by rintro _ ⟨n, h⟩; cases h), (by rintro ⟨d, h⟩; cases h)⟩
  have hdir : DirText [(4, 0), (5, 5)] b!"4 0 5 5" :=
    .cons [] b!"4" [32] b!"0" [(5, 5)] b!" 5 5" .nil (digits1 _ rfl) sepSp (by simp) (digits1 _ rfl) (sep_stop (x := b!"5 5") sepSp (by simp))
      (.cons [32] b!"5" [32] b!"5" [] [] sepSp (digits1 _ rfl) sepSp (by simp) (digits1 _ rfl) notStart_nil .nil)
  obtain ⟨s', h1, h2⟩ := C34_members env 7 0 8 d raw b!"4 0 5 5" b!" null true " [(4, 0), (5, 5)] [.null, .bool true] fresh
    rfl rfl rfl rfl hdir (sep_stop (x := b!"null true ") sepSp (by simp)) rfl (by
      intro p hp
      simp at hp
      rcases hp with rfl | rfl
      · exact ⟨[], b!"null", [32], b!"true ", rfl, .nil, .null, f4⟩
      · exact ⟨[], b!"true", [32], [], rfl, .nil, .true, f5⟩) rfl 5 (by decide)
  exact ⟨s', h1, by rw [h2]; rfl, by rw [h2]; rfl⟩

/-! ### C60 -/

/-- C60: the text `n g obj value endobj`, with any separators, is read as the indirect object with this number,
generation and value, and the input after it is left. -/
theorem C60_indirect_object (cfg : Cfg) (hc : cfg.NoDiv) (hr : cfg.refs = true) (n g : Nat) (o : Obj) (t x : Bytes) (h : IndText n g o t) :
    indirectObject cfg (t ++ x) = .ok ((n, g, o), x) :=
  indirect_text cfg hc hr h

example : indirectObject openCfg (b!"1 0 obj\n(new)\nendobj" ++ b!" rest") = .ok ((1, 0, .str b!"new"), b!" rest") :=
  C60_indirect_object openCfg openCfg_noDiv rfl _ _ _ _ _ new_text

end PdfReader
