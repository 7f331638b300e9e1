/-
  C100: resolving a reference ends.
-/
import Verif.Lemmas.Asks
import Verif.Props.Locate

namespace PdfReader
open Spec

/-- C100, the part which holds. Whatever the bytes of the file, the sections and the state of the parser are: resolving any reference ends,
provided every reference which some stream of the file uses as its Length is listed at the offset where it stands, no object
stream contains object streams, and the filters and the decryption end. -/
theorem C100_terminates_partial (env : Env) (hf : ∀ d raw, Ordinary (env.filtered d raw)) (hd : ∀ n g v, Ordinary (env.dec n g v))
    (hp : NoNestedPacks env) (hl : ∀ n g, UsedAsLength env.file n g → WellListed env n g) (n g : Nat) (s : St) :
    Ends (fun fuel => locate env fuel n g s) :=
  locate_ends ⟨hf, hd, hp⟩ (asks_of ⟨hf, hd, hp⟩ hl) n g s

/-- C100 for files whose Lengths are all direct: no assumption on the sections at all. -/
theorem C100_direct_lengths_partial (env : Env) (hf : ∀ d raw, Ordinary (env.filtered d raw)) (hd : ∀ n g v, Ordinary (env.dec n g v))
    (hp : NoNestedPacks env) (hl : ∀ n g, ¬ UsedAsLength env.file n g) (n g : Nat) (s : St) : Ends (fun fuel => locate env fuel n g s) :=
  C100_terminates_partial env hf hd hp (fun n g h => absurd h (hl n g)) n g s

/-- A file for the example: a stream with an indirect Length, listed. -/
def listedLength : Bytes := b!"%PDF-1.4\n1 0 obj<</Length 2 0 R>>stream\nx\nendstream\nendobj\n2 0 obj 1 endobj\nxref\n0 3\n0000000000 65535 f \n0000000009 00000 n \n0000000059 00000 n \ntrailer\n<</Size 3>>\nstartxref\n76\n%%EOF\n"

def listedEnv : Env :=
  { file := listedLength, filtered := plain, xrefs := [{ free := [(0, ⟨0, 65535⟩)], inUse := [(1, ⟨9, 0⟩), (2, ⟨59, 0⟩)] }] }

theorem listed_opens : (openDoc plain true 10 listedLength).map (fun p => (p.env.xrefs, p.st)) = .ok (listedEnv.xrefs, { reg := [], bf := 0, stack := [] }) := by
  decide +kernel

theorem listed_asks : ∀ off, off ≤ 190 → off ≠ 9 → asksNothing (listedLength.drop off) = true := by decide +kernel

theorem listed_nine : objHeader (listedLength.drop 9) = .ok ((1, 0), 60 :: 60 :: listedLength.drop 18) ∧
    skipSC false (listedLength.drop 18) = .ok (listedLength.drop 18) ∧
    dictLoop (askCfg []) (4 * (listedLength.drop 18).length + 11) [] (listedLength.drop 18) = .ok ([(b!"Length", .ref 2 0)], listedLength.drop 33) ∧
    indirectObject (askCfg []) (listedLength.drop 59) = .ok ((2, 0, .int 1), listedLength.drop 75) := by decide +kernel

theorem listed_past (off : Nat) (h : ¬ off ≤ 190) : listedLength.drop off = [] := by
  have : listedLength.length ≤ 190 := by decide +kernel
  exact List.drop_eq_nil_of_le (by omega)

/-- Whether what stands here is a stream with a directory of members. -/
def packAt (inp : Bytes) : Bool :=
  match indirectObject (askCfg []) inp with
  | .ok ((_, _, .stream d _), _) => (dictGet d b!"First").isSome
  | _ => false

theorem listed_packs : ∀ off, off ≤ 190 → packAt (listedLength.drop off) = false := by decide +kernel

theorem listed_used {n g : Nat} (h : UsedAsLength listedLength n g) : (n, g) = (2, 0) := by
  obtain ⟨off, known, h⟩ := h
  by_cases ho : off ≤ 190
  · by_cases h9 : off = 9
    · subst h9
      obtain ⟨h1, h2, h3, _⟩ := listed_nine
      exact stream_asks h1 h2 h3 rfl known h
    · have := ask_stable (asksNothing_ok (listed_asks off ho h9)) known
      rw [this] at h
      exact absurd h (asksNothing_ok (listed_asks off ho h9) n g)
  · rw [listed_past off ho] at h
    cases h

/-- The hypotheses of C100 hold for this file, and so resolving its objects ends. -/
example (n g : Nat) (s : St) : Ends (fun fuel => locate listedEnv fuel n g s) := by
  have hpl : ∀ d raw, Ordinary (listedEnv.filtered d raw) := fun d raw => ⟨(by intro h; cases h), (by intro h; cases h)⟩
  refine C100_terminates_partial listedEnv hpl (fun n g v => ⟨(by intro h; cases h), (by intro h; cases h)⟩) ?_ ?_ n g s
  · intro off known n g v w r d raw data first ms num o m hi hd hw hs hm hmm
    cases hd
    subst hw
    exfalso
    have hfirst : ∃ f, dictGet d b!"First" = some f := by
      unfold objStmDir at hs
      split at hs
      · cases hs
      · split at hs
        · cases hs
        · rename_i f hf; exact ⟨f, hf⟩
    by_cases ho : off ≤ 190
    · by_cases h9 : off = 9
      · subst h9
        obtain ⟨h1, h2, h3, _⟩ := listed_nine
        obtain ⟨f, hf⟩ := hfirst
        have := stream_dict h1 h2 h3 known hi
        rcases this with h | ⟨l, h⟩ <;> (rw [h] at hf; cases hf)
      · have hst := ask_stable (asksNothing_ok (listed_asks off ho h9)) known
        have hp := listed_packs off ho
        unfold packAt at hp
        change indirectObject (askCfg known) (listedLength.drop off) = _ at hi
        rw [hst] at hi
        rw [hi] at hp
        dsimp only at hp
        obtain ⟨f, hf⟩ := hfirst
        rw [hf] at hp
        cases hp
    · change indirectObject (askCfg known) (listedLength.drop off) = _ at hi
      rw [listed_past off ho] at hi
      cases hi
  · intro n g hu
    cases listed_used hu
    obtain ⟨_, _, _, h4⟩ := listed_nine
    exact ⟨[], _, [], ⟨59, 0⟩, rfl, by simp, rfl, rfl, .int 1, .int 1, _, h4, rfl⟩

/-- C100 fails for every file in which the newest section lists an object which is a stream with itself as Length: resolving it never ends, in every state in
which it is not registered yet. -/
theorem C100_self_length (env : Env) (x : XRef) (post : List XRef) (n g : Nat) (e : XEntry) (hx : env.xrefs = x :: post)
    (he : natGet x.inUse n = some e) (hg : e.gen = g) (ha : indirectObject (askCfg []) (env.file.drop e.offset) = .error (.need n g)) :
    ∀ (fuel : Nat) (s : St), regGet s.reg (n, g) = none → locate env fuel n g s = (.error .diverges, s) := by
  intro fuel
  induction fuel using Nat.strongRecOn with
  | _ fuel ih =>
    intro s hr
    have byX : ∀ f, f < fuel → byXref env f n g env.xrefs s = (.error .diverges, s) := by
      intro f hf
      rw [hx]
      cases f with
      | zero => rw [byXref]
      | succ f =>
        rw [byXref, he]; dsimp only; rw [if_pos hg]
        have : objectAt env f e.offset s = (.error .diverges, s) := by
          cases f with
          | zero => rw [objectAt]
          | succ f =>
            rw [objectAt]
            have : parseAt env f [] e.offset s = (.error .diverges, s) := by
              cases f with
              | zero => rw [parseAt]
              | succ f => rw [parseAt, ha]; dsimp only; rw [ih f (by omega) s hr]
            rw [this]
        rw [this]
    cases fuel with
    | zero => rw [locate]
    | succ fuel => rw [locate, hr]; dsimp only; rw [byX fuel (by omega)]

theorem openDoc_file {filtered : List (Bytes × Obj) → Bytes → Res Bytes} {clamps : Bool} {fuel : Nat} {file : Bytes} {o : Opened}
    (h : openDoc filtered clamps fuel file = .ok o) : o.env.file = file := by
  unfold openDoc at h
  split at h
  · cases h
  · split at h
    · cases h
    · split at h
      · cases h
      · cases h; rfl

theorem openDoc_dec {filtered : List (Bytes × Obj) → Bytes → Res Bytes} {clamps : Bool} {fuel : Nat} {file : Bytes} {o : Opened}
    (h : openDoc filtered clamps fuel file = .ok o) : o.env.dec = fun _ _ v => .ok v := by
  unfold openDoc at h
  split at h
  · cases h
  · split at h
    · cases h
    · split at h
      · cases h
      · cases h; rfl

/-- A stream which is its own Length. -/
def selfLength : Bytes := b!"%PDF-1.4\n1 0 obj<</Length 1 0 R>>stream\nx\nendstream\nendobj\nxref\n0 2\n0000000000 65535 f \n0000000009 00000 n \ntrailer\n<</Size 2>>\nstartxref\n59\n%%EOF\n"

theorem selfLength_opens : (openDoc plain true 10 selfLength).map (fun p => (p.env.xrefs, p.st)) =
    .ok ([{ free := [(0, ⟨0, 65535⟩)], inUse := [(1, ⟨9, 0⟩)] }], { reg := [], bf := 0, stack := [] }) := by decide +kernel

/-- C100 is false: `selfLength` opens, but resolving its only object never ends. -/
theorem C100_counterexample (o : Opened) (ho : openDoc plain true 10 selfLength = .ok o) (fuel : Nat) :
    (locate o.env fuel 1 0 o.st).1 = .error .diverges := by
  have h := selfLength_opens
  rw [ho] at h
  have hf := openDoc_file ho
  simp only [Except.map, Except.ok.injEq, Prod.mk.injEq] at h
  obtain ⟨h1, h2⟩ := h
  rw [C100_self_length o.env _ [] 1 0 ⟨9, 0⟩ h1 rfl rfl (by rw [hf]; decide +kernel) fuel o.st (by rw [h2]; rfl)]

/-- A stream, its Length two objects later, and a section which lists nothing. -/
def lateLength : Bytes := b!"%PDF-1.4\n1 0 obj<</Length 3 0 R>>stream\nx\nendstream\nendobj\n2 0 obj 7 endobj\n3 0 obj 1 endobj\nxref\n0 1\n0000000000 65535 f \ntrailer\n<</Size 4>>\nstartxref\n93\n%%EOF\n"

theorem lateLength_opens : (openDoc plain true 10 lateLength).map (fun p => (p.env.xrefs, p.st)) =
    .ok ([{ free := [(0, ⟨0, 65535⟩)] }], { reg := [], bf := 0, stack := [] }) := by decide +kernel

theorem late_locate {env : Env} (hx : ∀ x ∈ env.xrefs, ¬ Lists x 3 0) (fuel : Nat) (s : St) (hr : regGet s.reg (3, 0) = none) (hs : (3, 0) ∈ s.stack) :
    (locate env fuel 3 0 s = (.error .recursion, s) ∨ locate env fuel 3 0 s = (.error .diverges, s)) := by
  cases fuel with
  | zero => right; rw [locate]
  | succ fuel =>
    rw [locate, hr]
    dsimp only
    have hb : ∀ (xs : List XRef), (∀ x ∈ xs, ¬ Lists x 3 0) → ∀ fuel, byXref env fuel 3 0 xs s = (.ok none, s) ∨ byXref env fuel 3 0 xs s = (.error .diverges, s) := by
      intro xs
      induction xs with
      | nil =>
        intro _ fuel
        cases fuel with
        | zero => right; rw [byXref]
        | succ fuel => left; rw [byXref, hr]
      | cons x xs ih =>
        intro h fuel
        cases fuel with
        | zero => right; rw [byXref]
        | succ fuel =>
          have := ih (fun y hy => h y (List.mem_cons_of_mem _ hy)) fuel
          rw [byXref]
          cases he : natGet x.inUse 3 with
          | none => exact this
          | some e =>
            dsimp only
            rw [if_neg (fun hg => h x List.mem_cons_self ⟨e, he, hg⟩)]
            exact this
    rcases hb env.xrefs hx fuel with h | h
    · rw [h]
      dsimp only
      cases fuel with
      | zero => right; rw [bruteForce]
      | succ fuel => left; rw [bruteForce, hr]; dsimp only; rw [if_pos hs]
    · right; rw [h]

theorem late_facts : skipSC false (lateLength.drop 0) = .ok (lateLength.drop 9) ∧ skipSC false (lateLength.drop 59) = .ok (lateLength.drop 59) ∧
    indirectObject (askCfg []) (lateLength.drop 9) = .error (.need 3 0) ∧
    indirectObject (askCfg []) (lateLength.drop 59) = .ok ((2, 0, .int 7), lateLength.drop 75) := by decide +kernel

theorem late_next : ∀ k, k ≤ 43 → nextObject lateLength (9 + k) = .ok 59 := by decide +kernel

theorem late_head : lateLength.drop 9 = 49 :: lateLength.drop 10 ∧ lateLength.drop 59 = 50 :: lateLength.drop 60 ∧ lateLength.length = 161 := by decide +kernel

/-- The loop goes back and forth between the stream and the object after it. -/
theorem late_loop {env : Env} (hfile : env.file = lateLength) (hx : ∀ x ∈ env.xrefs, ¬ Lists x 3 0) (hdec : ∀ n g v, env.dec n g v = .ok v)
    (hsk : ∀ s, 9 ≤ env.seek s 9 ∧ env.seek s 9 ≤ 52) : ∀ (fuel : Nat) (s : St) (d : Option Nat) (last : Nat), regGet s.reg (3, 0) = none → (3, 0) ∈ s.stack →
    (bruteLoop env fuel [0] d last s).1 = .error .diverges ∧ (bruteLoop env fuel [59, 0] d last s).1 = .error .diverges := by
  obtain ⟨f1, f2, f3, f4⟩ := late_facts
  obtain ⟨g1, g2, g3⟩ := late_head
  intro fuel
  induction fuel with
  | zero => intro s d last _ _; rw [bruteLoop, bruteLoop]; exact ⟨rfl, rfl⟩
  | succ fuel ih =>
    intro s d last hr hs
    constructor
    · rw [bruteLoop, hfile, f1]
      dsimp only
      rw [List.length_drop, g3, show (161 : Nat) - (161 - 9) = 9 from rfl]
      have body : bodyElement env fuel 9 s = (.error .recursion, s) ∨ bodyElement env fuel 9 s = (.error .diverges, s) := by
        cases fuel with
        | zero => right; rw [bodyElement]
        | succ fuel =>
          rw [bodyElement, hfile, g1]
          dsimp only
          rw [if_pos (by decide)]
          cases fuel with
          | zero => right; rw [objectAt]
          | succ fuel =>
            rw [objectAt]
            cases fuel with
            | zero => right; rw [parseAt]
            | succ fuel =>
              rw [parseAt, hfile, f3]
              dsimp only
              rcases late_locate hx fuel s hr hs with h | h
              · left; rw [h]
              · right; rw [h]
      rcases body with h | h
      · rw [h]
        dsimp only
        obtain ⟨k, hk⟩ := Nat.exists_eq_add_of_le (hsk s).1
        rw [hk, late_next k (by have := (hsk s).2; omega)]
        exact (ih s _ _ hr hs).2
      · rw [h]
    · rw [bruteLoop, hfile, f2]
      dsimp only
      rw [List.length_drop, g3, show (161 : Nat) - (161 - 59) = 59 from rfl]
      have body : bodyElement env fuel 59 s = (.error .diverges, s) ∨ ∃ p, bodyElement env fuel 59 s = (.ok p, s.note (2, 0) (.int 7)) := by
        cases fuel with
        | zero => left; rw [bodyElement]
        | succ fuel =>
          rw [bodyElement, hfile, g2]
          dsimp only
          rw [if_pos (by decide)]
          cases fuel with
          | zero => left; rw [objectAt]
          | succ fuel =>
            rw [objectAt]
            cases fuel with
            | zero => left; rw [parseAt]
            | succ fuel =>
              right
              rw [parseAt, hfile, f4]
              dsimp only
              rw [hdec]
              dsimp only
              rw [register_plain env fuel 2 0 (.int 7) s rfl]
              exact ⟨_, rfl⟩
      rcases body with h | ⟨p, h⟩
      · rw [h]
      · rw [h]
        dsimp only
        refine (ih _ _ _ ?_ ?_).1
        · rw [regGet_note, hr]; simp
        · rw [note_stack]; exact hs

/-- C100 is false for a second reason: in `lateLength` every object is well formed and the Length of the stream stands in the file, but
resolving the stream never ends: the scan waits for the Length and reads the object after the stream again and again. This holds wherever
within the stream object the parser stands when the search for the Length gives up. -/
theorem C100_scan_counterexample (o : Opened) (ho : openDoc plain true 10 lateLength = .ok o) (seek : St → Nat → Nat)
    (hsk : ∀ s, 9 ≤ seek s 9 ∧ seek s 9 ≤ 52) (fuel : Nat) :
    (locate { o.env with seek := seek } fuel 1 0 o.st).1 = .error .diverges := by
  have h := lateLength_opens
  rw [ho] at h
  have hf := openDoc_file ho
  have hd : o.env.dec = fun _ _ v => .ok v := openDoc_dec ho
  simp only [Except.map, Except.ok.injEq, Prod.mk.injEq] at h
  obtain ⟨h1, h2⟩ := h
  generalize hE : ({ o.env with seek := seek } : Env) = env
  have e1 : env.file = lateLength := by rw [← hE]; exact hf
  have e2 : env.xrefs = [{ free := [(0, ⟨0, 65535⟩)] }] := by rw [← hE]; exact h1
  have e3 : ∀ n g v, env.dec n g v = .ok v := by intro n g v; rw [← hE]; show o.env.dec n g v = _; rw [hd]
  have e4 : ∀ s, 9 ≤ env.seek s 9 ∧ env.seek s 9 ≤ 52 := by rw [← hE]; exact hsk
  have no : ∀ n, ∀ x ∈ env.xrefs, ¬ Lists x n 0 := by
    intro n x hx
    rw [e2] at hx
    simp only [List.mem_singleton] at hx
    subst hx
    rintro ⟨e, he, _⟩
    cases he
  obtain ⟨f1, f2, f3, f4⟩ := late_facts
  obtain ⟨g1, g2, g3⟩ := late_head
  have byX : ∀ (n fuel : Nat) (s : St), (∃ v, byXref env fuel n 0 env.xrefs s = (.ok v, s)) ∨ byXref env fuel n 0 env.xrefs s = (.error .diverges, s) := by
    intro n fuel s
    match fuel with
    | 0 => right; rw [byXref]
    | 1 => right; rw [e2, byXref, show natGet ([] : List (Nat × XEntry)) n = none from rfl]; dsimp only; rw [byXref]
    | fuel + 2 =>
      left
      have := byXref_unlisted env n 0 s env.xrefs fuel (no n)
      rw [e2] at this ⊢
      exact ⟨_, this⟩
  -- the inner search for the Length
  have inner : ∀ (fuel : Nat) (s : St), s.bf = 0 → regGet s.reg (3, 0) = none → (3, 0) ∉ s.stack → (locate env fuel 3 0 s).1 = .error .diverges := by
    intro fuel s hb hr hs
    cases fuel with
    | zero => rw [locate]
    | succ fuel =>
      rw [locate, hr]
      dsimp only
      rcases byX 3 fuel s with ⟨v, hv⟩ | hv
      · rw [hv]
        dsimp only
        cases fuel with
        | zero => rw [bruteForce]
        | succ fuel =>
          rw [bruteForce, hr]
          dsimp only
          rw [if_neg hs]
          obtain ⟨reg, bf, stack⟩ := s
          dsimp only at hb
          subst hb
          have := (late_loop e1 (no 3) e3 e4 fuel ⟨reg, 0, (3, 0) :: stack⟩ none 0 hr List.mem_cons_self).1
          dsimp only
          generalize bruteLoop env fuel [0] none 0 ⟨reg, 0, (3, 0) :: stack⟩ = q at this ⊢
          obtain ⟨y, s1⟩ := q
          dsimp only at this
          subst this
          rfl
      · rw [hv]
  rw [h2]
  cases fuel with
  | zero => rw [locate]
  | succ fuel =>
    rw [locate]
    dsimp only [regGet]
    rcases byX 1 fuel { reg := [], bf := 0, stack := [] } with ⟨v, hv⟩ | hv
    · rw [hv]
      dsimp only
      cases fuel with
      | zero => rw [bruteForce]
      | succ fuel =>
        rw [bruteForce]
        dsimp only [regGet]
        rw [if_neg (by simp)]
        cases fuel with
        | zero => rw [bruteLoop]
        | succ fuel =>
          rw [bruteLoop, e1, f1]
          dsimp only
          rw [List.length_drop, g3, show (161 : Nat) - (161 - 9) = 9 from rfl]
          have body : ∃ s1, bodyElement env fuel 9 { reg := [], bf := 0, stack := [(1, 0)] } = (.error .diverges, s1) := by
            cases fuel with
            | zero => exact ⟨_, by rw [bodyElement]⟩
            | succ fuel =>
              rw [bodyElement, e1, g1]
              dsimp only
              rw [if_pos (by decide)]
              cases fuel with
              | zero => exact ⟨_, by rw [objectAt]⟩
              | succ fuel =>
                rw [objectAt]
                cases fuel with
                | zero => exact ⟨_, by rw [parseAt]⟩
                | succ fuel =>
                  rw [parseAt, e1, f3]
                  dsimp only
                  have := inner fuel { reg := [], bf := 0, stack := [(1, 0)] } rfl rfl (by decide)
                  generalize locate env fuel 3 0 { reg := [], bf := 0, stack := [(1, 0)] } = q at this
                  obtain ⟨y, s1⟩ := q
                  dsimp only at this
                  subst this
                  exact ⟨_, rfl⟩
          obtain ⟨s1, h⟩ := body
          rw [h]
    · rw [hv]

end PdfReader
