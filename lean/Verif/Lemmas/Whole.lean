/-
  Delivery of every object of a well-formed file: listed objects, streams with an indirect Length, members of object streams and
  objects found by scanning.
-/
import Verif.Lemmas.File

namespace PdfReader
open Spec

/-! ### Streams with an indirect Length -/

theorem objHeader_text {ns gs s₁ s₂ s₃ x : Bytes} (hn : Digits ns) (hg : Digits gs) (h1 : Sep s₁) (h1' : s₁ ≠ []) (h2 : Sep s₂) (h2' : s₂ ≠ [])
    (h3 : Sep s₃) (hx : NotStart SepChar x) :
    objHeader (ns ++ (s₁ ++ (gs ++ (s₂ ++ (b!"obj" ++ (s₃ ++ x)))))) = .ok ((decVal ns, decVal gs), x) := by
  unfold objHeader
  rw [nonNegInt_digits hn (stop_digit (sep_stop h1 h1')) (stop_dot (sep_stop h1 h1'))]
  simp only
  rw [skipSC_sep h1 (digits_notSep hg)]
  simp only
  rw [nonNegInt_digits hg (stop_digit (sep_stop h2 h2')) (stop_dot (sep_stop h2 h2'))]
  simp only
  rw [skipSC_sep h2 (notSep_obj _)]
  simp only
  rw [show readN 3 (b!"obj" ++ (s₃ ++ x)) = .ok (b!"obj", s₃ ++ x) from readN_append b!"obj" _]
  simp only [if_true]
  rw [skipSC_sep h3 hx]

theorem dictSet_map (k : Bytes) (v : Obj) : ∀ es : List (Bytes × Obj), (es.map (·.1)).Nodup → k ∈ es.map (·.1) →
    dictSet es k v = es.map fun e => if e.1 = k then (e.1, v) else e := by
  intro es
  induction es with
  | nil => intro _ h; cases h
  | cons e es ih =>
    intro hn hk
    obtain ⟨k', v'⟩ := e
    rw [dictSet]
    rw [List.map_cons, List.nodup_cons] at hn
    by_cases e : k' = k
    · subst e
      rw [if_pos rfl, List.map_cons, if_pos rfl]
      congr 1
      refine ((List.map_congr_left ?_).trans (List.map_id es)).symm
      intro e he
      rw [if_neg]
      · rfl
      · intro h
        exact hn.1 (List.mem_map.mpr ⟨e, he, h⟩)
    · rw [if_neg e, List.map_cons, if_neg e]
      congr 1
      refine ih hn.2 ?_
      rw [List.map_cons, List.mem_cons] at hk
      rcases hk with h | h
      · exact absurd h.symm e
      · exact h

theorem lenText_parse {ln lg len n g : Nat} {o : Obj} {t : Bytes} (h : LenText ln lg len n g o t) (x : Bytes) :
    indirectObject (askCfg []) (t ++ x) = .error (.need ln lg) ∧
    ∀ known, regGet known (ln, lg) = some (.int (len : Nat)) → indirectObject (askCfg known) (t ++ x) = .ok ((n, g, o), x) := by
  cases h with
  | mk ns gs s₁ s₂ s₃ s₄ raw u s nl data w hn hg h1 h1' h2 h2' h3 h4 hu hs hnl hw hlen =>
    have e : (ns ++ (s₁ ++ (gs ++ (s₂ ++ (b!"obj" ++ (s₃ ++
          ((60 :: 60 :: (u ++ 62 :: 62 :: (s ++ (b!"stream" ++ (nl ++ (data ++ (w ++ b!"endstream")))))))  ++ (s₄ ++ b!"endobj")))))))) ++ x =
        ns ++ (s₁ ++ (gs ++ (s₂ ++ (b!"obj" ++ (s₃ ++
          (60 :: 60 :: (u ++ 62 :: 62 :: (s ++ (b!"stream" ++ (nl ++ (data ++ (w ++ (b!"endstream" ++ (s₄ ++ (b!"endobj" ++ x))))))))))))))) := by
      simp
    have hh := objHeader_text (x := 60 :: 60 :: (u ++ 62 :: 62 :: (s ++ (b!"stream" ++ (nl ++ (data ++ (w ++ (b!"endstream" ++ (s₄ ++ (b!"endobj" ++ x))))))))))
      hn hg h1 h1' h2 h2' h3 (notSep_byte rfl (by decide))
    have hp : ∀ known, parseObject (askCfg known) (60 :: 60 :: (u ++ 62 :: 62 :: (s ++ (b!"stream" ++ (nl ++ (data ++ (w ++ (b!"endstream" ++ (s₄ ++ (b!"endobj" ++ x)))))))))) =
        streamP (askCfg known) (dictOf raw) (b!"stream" ++ (nl ++ (data ++ (w ++ (b!"endstream" ++ (s₄ ++ (b!"endobj" ++ x))))))) :=
      fun known => parse_dict_stream (askCfg known) (askCfg_noDiv known) hu hs
    constructor
    · rw [e]
      unfold indirectObject
      rw [hh]
      dsimp only
      rw [hp]
      unfold streamP
      rw [dictGet_dictOf, hlen]
      rfl
    · intro known hk
      rw [e]
      unfold indirectObject
      rw [hh]
      dsimp only
      rw [hp]
      have hset : dictSet (dictOf raw) b!"Length" (.int (data.length : Nat)) =
          (dictOf raw).map fun e => if e.1 = b!"Length" then (e.1, .int data.length) else e := by
        refine dictSet_map _ _ _ ?_ ?_
        · rw [keys_dictOf]; exact nodup_eraseDups _
        · rw [keys_dictOf, List.mem_eraseDups]
          unfold lastVal at hlen
          cases hf : raw.reverse.find? (fun e => e.1 == b!"Length") with
          | none => rw [hf] at hlen; cases hlen
          | some e =>
            have h1 := List.mem_of_find?_eq_some hf
            have h2 := List.find?_some hf
            simp at h2
            exact List.mem_map.mpr ⟨e, List.mem_reverse.mp h1, h2⟩
      have hst : streamP (askCfg known) (dictOf raw) (b!"stream" ++ (nl ++ (data ++ (w ++ (b!"endstream" ++ (s₄ ++ (b!"endobj" ++ x))))))) =
          .ok (.stream ((dictOf raw).map fun e => if e.1 = b!"Length" then (e.1, .int data.length) else e) data, s₄ ++ (b!"endobj" ++ x)) := by
        unfold streamP
        rw [dictGet_dictOf, hlen]
        dsimp only [askCfg]
        rw [hk]
        dsimp only
        rw [hset]
        exact streamBody_exact _ _ _ _ _ hnl hw
      rw [hst]
      dsimp only
      unfold objTail
      rw [skipSC_sep h4 (r := b!"endobj" ++ x) (notSep_byte rfl (by decide))]
      dsimp only
      rw [show readN 6 (b!"endobj" ++ x) = .ok (b!"endobj", x) from readN_append b!"endobj" _]
      rfl

/-! ### Listed objects -/

theorem agree_split {xs : List XRef} {revs : List Revision} (h : AllAgree xs revs) : ∀ (newer : List Revision) (r : Revision) (older : List Revision),
    revs = newer ++ r :: older → ∃ nx x ox, xs = nx ++ x :: ox ∧ AllAgree nx newer ∧ Agrees x r := by
  induction h with
  | nil => intro newer r older e; cases newer <;> cases e
  | @cons x r xs rs hx hxs ih =>
    intro newer r' older e
    cases newer with
    | nil =>
      cases e
      exact ⟨[], x, xs, rfl, .nil, hx⟩
    | cons q newer =>
      cases e
      obtain ⟨nx, y, ox, h1, h2, h3⟩ := ih newer r' older rfl
      exact ⟨x :: nx, y, ox, by rw [h1]; rfl, .cons hx h2, h3⟩

theorem agree_mem {xs : List XRef} {revs : List Revision} (h : AllAgree xs revs) : ∀ x ∈ xs, ∃ r ∈ revs, Agrees x r := by
  induction h with
  | nil => intro x hx; cases hx
  | @cons x r xs rs hx hxs ih =>
    intro y hy
    rcases List.mem_cons.mp hy with rfl | hy
    · exact ⟨r, List.mem_cons_self, hx⟩
    · obtain ⟨r', h1, h2⟩ := ih y hy
      exact ⟨r', List.mem_cons_of_mem _ h1, h2⟩

theorem agree_lists {x : XRef} {r : Revision} (h : Agrees x r) {n g : Nat} : Lists x n g ↔ ∃ off, r.inUse n = some (off, g) := by
  constructor
  · rintro ⟨e, h1, h2⟩
    exact ⟨e.offset, by rw [← h n, h1, ← h2]; rfl⟩
  · rintro ⟨off, h1⟩
    have := h n
    rw [h1] at this
    cases he : natGet x.inUse n with
    | none => rw [he] at this; cases this
    | some e => rw [he] at this; cases this; exact ⟨e, he, rfl⟩

theorem current_listed {xs : List XRef} {revs : List Revision} (h : AllAgree xs revs) {n g off : Nat} (hc : CurrentAt revs n g off) :
    ∃ nx x ox, xs = nx ++ x :: ox ∧ (∀ y ∈ nx, ¬ Lists y n g) ∧ natGet x.inUse n = some ⟨off, g⟩ := by
  obtain ⟨newer, r, older, h1, h2, h3⟩ := hc
  obtain ⟨nx, x, ox, e1, e2, e3⟩ := agree_split h newer r older h1
  refine ⟨nx, x, ox, e1, ?_, ?_⟩
  · intro y hy hl
    obtain ⟨q, hq, ha⟩ := agree_mem e2 y hy
    obtain ⟨off', hoff⟩ := (agree_lists ha).mp hl
    exact h2 q hq off' hoff
  · have := e3 n
    rw [h3] at this
    cases he : natGet x.inUse n with
    | none => rw [he] at this; cases this
    | some e => rw [he] at this; cases e; cases this; rfl

/-! ### The registry -/

section
variable (env : Env) (content : Content)

/-- What `filtered` says about the data of a stream. -/
abbrev Env.decoded : List (Bytes × Obj) → Bytes → Bytes → Prop := fun d raw data => env.filtered d raw = .ok data

/-- The registry agrees with the content; with an object stream all its members are known. -/
structure Known (s : St) : Prop where
  sound : ∀ n g o v, content n g = some o → regGet s.reg (n, g) = some v → v = o
  closed : ∀ n g o defs, content n g = some o → Defines env.decoded n g o defs → regGet s.reg (n, g) ≠ none →
    ∀ d ∈ defs, regGet s.reg d.1 = some d.2

/-- A step which forgets nothing and does not move the scan. -/
structure Grows (s s' : St) : Prop where
  known : Known env content s'
  mono : Mono s s'
  bf : s'.bf = s.bf

variable {env content}

theorem Grows.trans {a b c : St} (h : Grows env content a b) (h' : Grows env content b c) : Grows env content a c :=
  ⟨h'.known, h.mono.trans h'.mono, h'.bf.trans h.bf⟩

theorem isObjStm_noPack {o : Obj} (h : NoPack o) : isObjStm o = false := by
  unfold isObjStm
  cases o with
  | stream d raw =>
    dsimp only
    cases hv : dictGet d b!"Type" with
    | none => rfl
    | some v =>
      have := h d raw v rfl hv
      simp only [Option.getD_some]
      unfold isText
      split <;> simp_all
  | _ => rfl

theorem noPack_den {refs : Bool} {o : Obj} {t : Bytes} (h : Den refs (.obj o) t) : NoPack o := by
  intro d raw v e
  subst e
  cases h

theorem defines_noPack {n g : Nat} {o : Obj} {defs} (hn : NoPack o) (h : Defines env.decoded n g o defs) : defs = [((n, g), o)] := by
  cases h with
  | plain => rfl
  | pack first d raw dir rest ms os htype => exact absurd (hn d raw _ rfl htype) (by simp)

theorem regGet_reg_put {s : St} {k k' : Key} {v : Obj} : regGet (s.put k v).reg k' = if k = k' then some v else regGet s.reg k' := rfl

theorem register_pack {n g first : Nat} {d : List (Bytes × Obj)} {raw dir rest : Bytes} {ms : List (Nat × Nat)} {os : List Obj}
    {s : St} (htype : dictGet d b!"Type" = some (.name b!"ObjStm")) (hN : dictGet d b!"N" = some (.int ms.length))
    (hF : dictGet d b!"First" = some (.int first)) (hdata : env.filtered d raw = .ok (dir ++ rest)) (hdir : DirText ms dir) (hrest : Stop rest)
    (hlen : ms.length = os.length) (hobj : ∀ p ∈ ms.zip os, ObjectAt (dir ++ rest) (first + p.1.2) p.2)
    (hs : regGet s.reg (n, g) = none) (fuel : Nat) (hfuel : ms.length + 2 ≤ fuel) :
    ∃ s', register env (fuel + 1) n g (.stream d raw) s = (.ok (), s') ∧ s'.bf = s.bf ∧ s'.stack = s.stack ∧
      ∀ k, regGet s'.reg k =
        if (n, g) = k then some (.stream d raw)
        else match regGet s.reg k with
          | some v => some v
          | none => if k.2 = 0 then firstMember ((ms.map (·.1)).zip os) k.1 else none := by
  obtain ⟨ks, hk, hp⟩ := objStmInts_text rest hrest ms dir hdir
  obtain ⟨s', h1, h2, h3, h4⟩ := registerAll_text env (dir ++ rest) first ms os (s.put (n, g) (.stream d raw)) fuel hlen hobj hfuel
  refine ⟨s', ?_, h2, h3, ?_⟩
  · rw [register, hs]
    dsimp only
    have ho : isObjStm (.stream d raw) = true := by
      unfold isObjStm
      dsimp only
      rw [htype]
      rfl
    have hdirOk : objStmDir env.filtered d raw = .ok (dir ++ rest, .int first, ms) := by
      unfold objStmDir
      rw [hdata, hF, hN]
      dsimp only [countOf]
      rw [Int.toNat_natCast, hk]
      dsimp only
      rw [hp]
    rw [if_pos ho, hdirOk]
    dsimp only
    exact h1
  · intro k
    rw [h4, regGet_reg_put]
    by_cases e : (n, g) = k
    · rw [if_pos e, if_pos e]
    · rw [if_neg e, if_neg e]
      rfl

theorem firstMember_mem {ms : List (Nat × Nat)} {os : List Obj} {n : Nat} {o : Obj} (h : firstMember ((ms.map (·.1)).zip os) n = some o) :
    ∃ p ∈ ms.zip os, p.1.1 = n ∧ p.2 = o := by
  unfold firstMember at h
  cases hf : ((ms.map (·.1)).zip os).find? (fun m => m.1 == n) with
  | none => rw [hf] at h; cases h
  | some m =>
    rw [hf] at h
    have h1 := List.mem_of_find?_eq_some hf
    have h2 := List.find?_some hf
    rw [List.zip_map_left, List.mem_map] at h1
    obtain ⟨p, hp, e⟩ := h1
    subst e
    cases h
    exact ⟨p, hp, by simpa using h2, rfl⟩

theorem firstMember_some {ms : List (Nat × Nat)} {os : List Obj} {p : (Nat × Nat) × Obj} (h : p ∈ ms.zip os) :
    ∃ o, firstMember ((ms.map (·.1)).zip os) p.1.1 = some o := by
  unfold firstMember
  cases hf : ((ms.map (·.1)).zip os).find? (fun m => m.1 == p.1.1) with
  | some m => exact ⟨m.2, rfl⟩
  | none =>
    have := List.find?_eq_none.mp hf (p.1.1, p.2) (by
      rw [List.zip_map_left, List.mem_map]
      exact ⟨p, h, rfl⟩)
    simp at this

/-- The members of a pack, once its directory has been registered. -/
theorem pack_defs (hpk : ∀ n g o defs, content n g = some o → Defines env.decoded n g o defs → ∀ d ∈ defs, content d.1.1 d.1.2 = some d.2)
    {n g : Nat} {o : Obj} {defs} (ho : content n g = some o) (hd : Defines env.decoded n g o defs) (hnp : ¬ NoPack o) {s : St} (hs : Known env content s)
    (hk : regGet s.reg (n, g) = none) {fuel : Nat} (hf : defs.length + 1 ≤ fuel) {s' : St} (hr : register env (fuel + 1) n g o s = (.ok (), s')) :
    ∀ d ∈ defs, regGet s'.reg d.1 = some d.2 := by
  have hcon := hpk n g o defs ho hd
  cases hd with
  | plain _ hn => exact absurd hn hnp
  | pack first d raw dir rest ms os htype hN hF hdata hdir hrest hlen hobj =>
    obtain ⟨s2, e, _, _, hreg⟩ := register_pack (env := env) (s := s) htype hN hF hdata hdir hrest hlen hobj hk fuel
      (by simp [← hlen] at hf; omega)
    rw [hr] at e
    cases e
    intro x hx
    rw [hreg]
    by_cases e : (n, g) = x.1
    · rw [if_pos e]
      have := hcon x hx
      rw [← e] at this
      dsimp only at this
      rw [ho] at this
      exact this
    · rw [if_neg e]
      cases hv : regGet s.reg x.1 with
      | some v =>
        dsimp only
        rw [hs.sound x.1.1 x.1.2 x.2 v (hcon x hx) hv]
      | none =>
        dsimp only
        rcases List.mem_cons.mp hx with rfl | hx
        · exact absurd rfl e
        · obtain ⟨p, hp, rfl⟩ := List.mem_map.mp hx
          dsimp only
          rw [if_pos rfl]
          obtain ⟨o', ho'⟩ := firstMember_some hp
          rw [ho']
          obtain ⟨q, hq, e1, e2⟩ := firstMember_mem ho'
          have h1 := hcon _ (List.mem_cons_of_mem _ (List.mem_map.mpr ⟨p, hp, rfl⟩))
          have h2 := hcon _ (List.mem_cons_of_mem _ (List.mem_map.mpr ⟨q, hq, rfl⟩))
          dsimp only at h1 h2
          rw [e1, h1] at h2
          rw [← e2]
          exact h2.symm

theorem defines_length {n g n' g' : Nat} {o : Obj} {defs defs'} (h : Defines env.decoded n g o defs) (h' : Defines env.decoded n' g' o defs') :
    defs.length = defs'.length := by
  cases h with
  | plain _ hn => cases h' with
    | plain => rfl
    | pack first d raw dir rest ms os htype => exact absurd (hn d raw _ rfl htype) (by simp)
  | pack first d raw dir rest ms os htype hN hF hdata hdir hrest hlen hobj => cases h' with
    | plain _ hn => exact absurd (hn d raw _ rfl htype) (by simp)
    | pack first' _ _ dir' rest' ms' os' htype' hN' hF' hdata' hdir' hrest' hlen' hobj' =>
      rw [hN] at hN'
      have : ms.length = ms'.length := by
        have := Option.some.inj hN'
        simp at this
        omega
      simp [← hlen, ← hlen', this]

theorem register_defs (hpk : ∀ n g o defs, content n g = some o → Defines env.decoded n g o defs → ∀ d ∈ defs, content d.1.1 d.1.2 = some d.2)
    {n g : Nat} {o : Obj} {defs} (ho : content n g = some o) (hd : Defines env.decoded n g o defs) {s : St} (hs : Known env content s)
    (fuel : Nat) (hf : defs.length + 2 ≤ fuel) :
    ∃ s', register env fuel n g o s = (.ok (), s') ∧ Grows env content s s' ∧ ∀ d ∈ defs, regGet s'.reg d.1 = some d.2 := by
  obtain ⟨f, rfl⟩ : ∃ f, fuel = f + 1 := ⟨fuel - 1, by omega⟩
  cases hk : regGet s.reg (n, g) with
  | some v =>
    refine ⟨s, ?_, ⟨hs, .refl s, rfl⟩, hs.closed n g o defs ho hd (by rw [hk]; simp)⟩
    rw [register, hk]
  | none =>
    cases hd with
    | plain _ hn =>
      rw [register_plain _ _ _ _ _ _ (isObjStm_noPack hn), St.note_new hk]
      refine ⟨_, rfl, ⟨⟨?_, ?_⟩, .put hk, rfl⟩, ?_⟩
      · intro n' g' o' v' h1 h2
        rw [regGet_reg_put] at h2
        split at h2
        · rename_i e
          cases e
          cases h2
          rw [ho] at h1
          cases h1
          rfl
        · exact hs.sound n' g' o' v' h1 h2
      · intro n' g' o' defs' h1 h2 h3 d hd
        by_cases e : (n, g) = (n', g')
        · cases e
          rw [ho] at h1
          cases h1
          rw [defines_noPack hn h2] at hd
          simp at hd
          subst hd
          exact regGet_put _ _ _
        · rw [regGet_reg_put, if_neg e] at h3
          exact (Mono.put hk).reg _ _ (hs.closed n' g' o' defs' h1 h2 h3 d hd)
      · intro d hd
        simp at hd
        subst hd
        exact regGet_put _ _ _
    | pack first d raw dir rest ms os htype hN hF hdata hdir hrest hlen hobj =>
      have hnp : ¬ NoPack (.stream d raw) := fun h => absurd (h d raw _ rfl htype) (by simp)
      have hd : Defines env.decoded n g (.stream d raw) (((n, g), .stream d raw) :: (ms.zip os).map fun p => ((p.1.1, 0), p.2)) :=
        .pack first d raw dir rest ms os htype hN hF hdata hdir hrest hlen hobj
      have hcon := hpk n g _ _ ho hd
      have hf' : (((n, g), Obj.stream d raw) :: (ms.zip os).map fun p => ((p.1.1, 0), p.2)).length + 1 ≤ f := by
        simp [← hlen] at hf ⊢; omega
      obtain ⟨s', e, hbf, hst, hreg⟩ := register_pack (env := env) (s := s) htype hN hF hdata hdir hrest hlen hobj hk f
        (by simp [← hlen] at hf; omega)
      have hmono : Mono s s' := by
        refine ⟨hst, fun k v hv => ?_⟩
        rw [hreg]
        by_cases e : (n, g) = k
        · subst e; rw [hk] at hv; cases hv
        · rw [if_neg e, hv]
      refine ⟨s', e, ⟨⟨?_, ?_⟩, hmono, hbf⟩, pack_defs hpk ho hd hnp hs hk hf' e⟩
      · intro n' g' o' v' h1 h2
        rw [hreg] at h2
        split at h2
        · rename_i e
          cases e
          cases h2
          rw [ho] at h1
          exact Option.some.inj h1
        · split at h2
          · rename_i v'' hv
            cases h2
            exact hs.sound n' g' o' _ h1 hv
          · split at h2
            · rename_i e0
              dsimp only at e0
              subst e0
              obtain ⟨p, hp, e1, e2⟩ := firstMember_mem h2
              have := hcon _ (List.mem_cons_of_mem _ (List.mem_map.mpr ⟨p, hp, rfl⟩))
              dsimp only at this e1
              rw [e1, h1] at this
              rw [← e2]
              exact (Option.some.inj this).symm
            · cases h2
      · intro n' g' o' defs' h1 h2 h3 x hx
        by_cases e' : (n, g) = (n', g')
        · cases e'
          rw [ho] at h1
          cases h1
          exact pack_defs hpk ho h2 hnp hs hk (by rw [defines_length h2 hd]; exact hf') e x hx
        · cases hv : regGet s.reg (n', g') with
          | some v => exact hmono.reg _ _ (hs.closed n' g' o' defs' h1 h2 (by rw [hv]; simp) x hx)
          | none =>
            have h3' := h3
            rw [hreg, if_neg e', hv] at h3'
            dsimp only at h3'
            split at h3'
            · rename_i e0
              subst e0
              cases hm : firstMember ((ms.map (·.1)).zip os) n' with
              | none => exact absurd hm h3'
              | some o'' =>
                obtain ⟨p, hp, e1, e2⟩ := firstMember_mem hm
                have hc := hcon _ (List.mem_cons_of_mem _ (List.mem_map.mpr ⟨p, hp, rfl⟩))
                dsimp only at hc
                rw [e1, h1] at hc
                obtain ⟨_, _, _, _, _, _, hden, _⟩ := hobj p hp
                rw [← Option.some.inj hc] at hden e2
                rw [defines_noPack (noPack_den hden) h2] at hx
                simp at hx
                subst hx
                dsimp only
                rw [hreg, if_neg e', hv]
                dsimp only
                rw [if_pos rfl, hm, e2]
            · exact absurd rfl h3'

/-! ### Reading an element -/

theorem objectAt_direct
    (hpk : ∀ n g o defs, content n g = some o → Defines env.decoded n g o defs → ∀ d ∈ defs, content d.1.1 d.1.2 = some d.2)
    {n g off : Nat} {o w : Obj} {defs} {t x : Bytes} (ho : content n g = some o) (hd : Defines env.decoded n g o defs) (ht : IndText n g w t)
    (hdec : env.dec n g w = .ok o) (hf : env.file.drop off = t ++ x) {s : St} (hs : Known env content s) (fuel : Nat) (hfuel : defs.length + 4 ≤ fuel) :
    ∃ s', objectAt env fuel off s = (.ok (env.file.length - x.length), s') ∧ Grows env content s s' ∧ ∀ d ∈ defs, regGet s'.reg d.1 = some d.2 := by
  obtain ⟨f, rfl⟩ : ∃ f, fuel = f + 2 := ⟨fuel - 2, by omega⟩
  obtain ⟨s', e, h1, h2⟩ := register_defs hpk ho hd hs (f + 1) (by omega)
  refine ⟨s', ?_, h1, h2⟩
  rw [objectAt, parseAt, hf, indirect_text (askCfg []) (askCfg_noDiv _) rfl ht]
  dsimp only
  rw [hdec]
  dsimp only
  rw [e]

theorem locate_found {n g off p : Nat} {o : Obj} {nx ox : List XRef} {x : XRef} (ho : content n g = some o)
    (hx : env.xrefs = nx ++ x :: ox) (hnx : ∀ y ∈ nx, ¬ Lists y n g) (he : natGet x.inUse n = some ⟨off, g⟩) {s s' : St} (hs : Known env content s) {f : Nat}
    (hat : objectAt env f off s = (.ok p, s')) (hg : Grows env content s s') (hr : regGet s'.reg (n, g) = some o) :
    ∃ s'', locate env (f + 1 + nx.length + 1) n g s = (.ok o, s'') ∧ Grows env content s s'' := by
  have hb : byXref env (f + 1 + nx.length) n g env.xrefs s = (.ok (some o), s') := by
    rw [hx, byXref_skip _ _ _ _ _ _ _ hnx, byXref, he]
    dsimp only
    rw [if_pos rfl, hat]
    dsimp only
    rw [hr]
  have hbf : bruteForce env (f + 1 + nx.length) n g s' = (.ok o, s') := by
    rw [show f + 1 + nx.length = (f + nx.length) + 1 by omega, bruteForce, hr]
  rw [locate]
  cases hk : regGet s.reg (n, g) with
  | none =>
    dsimp only
    rw [hb]
    dsimp only
    exact ⟨s', hbf, hg⟩
  | some v =>
    dsimp only
    have := hs.sound n g o v ho hk
    subst this
    split
    · exact ⟨s, rfl, hs, .refl s, rfl⟩
    · rw [hb]
      dsimp only
      exact ⟨s', hbf, hg⟩

variable {revs : List Revision} {written : Nat → Nat → Obj → Obj → Prop}

theorem defines_int (n g : Nat) (k : Int) : Defines env.decoded n g (.int k) [((n, g), .int k)] :=
  .plain _ (by intro d raw v e; cases e)

theorem objectAt_obj (hag : AllAgree env.xrefs revs) (hdec : ∀ n g o w, written n g o w → env.dec n g w = .ok o)
    (hint : ∀ n g (k : Int), env.dec n g (.int k) = .ok (.int k))
    (hpk : ∀ n g o defs, content n g = some o → Defines env.decoded n g o defs → ∀ d ∈ defs, content d.1.1 d.1.2 = some d.2)
    {n g off : Nat} {o w : Obj} {defs} {t x : Bytes} (ho : content n g = some o) (hd : Defines env.decoded n g o defs)
    (ht : ObjText env.file revs content n g w t) (hw : written n g o w) (hf : env.file.drop off = t ++ x) {s : St} (hs : Known env content s) (fuel : Nat)
    (hfuel : defs.length + env.xrefs.length + 10 ≤ fuel) :
    ∃ s', objectAt env fuel off s = (.ok (env.file.length - x.length), s') ∧ Grows env content s s' ∧ ∀ d ∈ defs, regGet s'.reg d.1 = some d.2 := by
  rcases ht with ht | ⟨ln, lg, len, loff, t', rest, ht, hl, hcur, hlf, hlt⟩
  · exact objectAt_direct hpk ho hd ht (hdec _ _ _ _ hw) hf hs fuel (by omega)
  obtain ⟨h1, h2⟩ := lenText_parse ht x
  obtain ⟨nx, y, ox, hx, hnx, he⟩ := current_listed hag hcur
  have hlen : nx.length < env.xrefs.length := by rw [hx]; simp
  obtain ⟨f, rfl⟩ : ∃ f, fuel = (f + 1 + nx.length + 1) + 2 := ⟨fuel - nx.length - 4, by omega⟩
  obtain ⟨s1, e1, g1, r1⟩ := objectAt_direct hpk hl (defines_int ln lg len) hlt (hint _ _ _) hlf hs f (by simp; omega)
  obtain ⟨s2, e2, g2⟩ := locate_found hl hx hnx he hs e1 g1 (r1 ((ln, lg), .int len) (by simp))
  obtain ⟨s3, e3, g3, r3⟩ := register_defs hpk ho hd g2.known (f + 1 + nx.length + 1 + 1) (by omega)
  refine ⟨s3, ?_, g2.trans g3, r3⟩
  have hp : parseAt env (f + 1 + nx.length + 1 + 1) [] off s = (.ok ((n, g, w), x), s2) := by
    rw [parseAt, hf, h1]
    dsimp only
    rw [e2]
    dsimp only
    rw [parseAt, hf, h2 _ (by simp [regGet])]
  rw [objectAt, hp]
  dsimp only
  rw [hdec _ _ _ _ hw]
  dsimp only
  rw [e3]

theorem locate_current (hag : AllAgree env.xrefs revs) (hdec : ∀ n g o w, written n g o w → env.dec n g w = .ok o)
    (hint : ∀ n g (k : Int), env.dec n g (.int k) = .ok (.int k))
    (hpk : ∀ n g o defs, content n g = some o → Defines env.decoded n g o defs → ∀ d ∈ defs, content d.1.1 d.1.2 = some d.2)
    {n g off : Nat} {o w : Obj} {defs} {t x : Bytes} (ho : content n g = some o) (hd : Defines env.decoded n g o defs)
    (ht : ObjText env.file revs content n g w t) (hw : written n g o w) (hcur : CurrentAt revs n g off) (hf : env.file.drop off = t ++ x) {s : St} (hs : Known env content s) (fuel : Nat)
    (hfuel : defs.length + 2 * env.xrefs.length + 12 ≤ fuel) :
    ∃ s', locate env fuel n g s = (.ok o, s') ∧ Grows env content s s' := by
  obtain ⟨nx, y, ox, hx, hnx, he⟩ := current_listed hag hcur
  have hlen : nx.length < env.xrefs.length := by rw [hx]; simp
  obtain ⟨f, rfl⟩ : ∃ f, fuel = f + 1 + nx.length + 1 := ⟨fuel - nx.length - 2, by omega⟩
  obtain ⟨s1, e1, g1, r1⟩ := objectAt_obj hag hdec hint hpk ho hd ht hw hf hs f (by omega)
  refine locate_found ho hx hnx he hs e1 g1 (r1 ((n, g), o) ?_)
  cases hd <;> simp

/-! ### Scanning -/

theorem objText_head {n g : Nat} {o : Obj} {t : Bytes} (h : ObjText env.file revs content n g o t) : ∃ c t', t = c :: t' ∧ isDigit c = true := by
  rcases h with h | ⟨_, _, _, _, _, _, h, _⟩
  · exact ind_head h
  · cases h with
    | mk ns gs s₁ s₂ s₃ s₄ raw u s nl data w hn =>
      obtain ⟨c, t', e, hc⟩ := digits_head hn
      exact ⟨c, _, by rw [e]; rfl, hc⟩

theorem bruteLoop_obj (hag : AllAgree env.xrefs revs) (hdec : ∀ n g o w, written n g o w → env.dec n g w = .ok o)
    (hint : ∀ n g (k : Int), env.dec n g (.int k) = .ok (.int k))
    (hpk : ∀ n g o defs, content n g = some o → Defines env.decoded n g o defs → ∀ d ∈ defs, content d.1.1 d.1.2 = some d.2)
    {n g b : Nat} {o w : Obj} {defs} {sep t x p : Bytes} (ho : content n g = some o) (hd : Defines env.decoded n g o defs)
    (ht : ObjText env.file revs content n g w t) (hw : written n g o w) (hf : env.file = p ++ (sep ++ (t ++ x))) (hb : b = p.length) (hsep : Sep sep)
    {s : St} (hs : Known env content s) (fuel : Nat) (hfuel : defs.length + env.xrefs.length + 12 ≤ fuel) :
    ∃ s', bruteLoop env fuel [b] none b s = (.ok (env.file.length - x.length), s') ∧ Grows env content s s' ∧ ∀ d ∈ defs, regGet s'.reg d.1 = some d.2 := by
  obtain ⟨f, rfl⟩ : ∃ f, fuel = f + 2 := ⟨fuel - 2, by omega⟩
  obtain ⟨c, t', hc, hdig⟩ := objText_head ht
  obtain ⟨hws, h37, _⟩ := digit_not_ws c hdig
  have hsk : skipSC false (env.file.drop b) = .ok (t ++ x) := by
    rw [show env.file.drop b = sep ++ (t ++ x) by rw [hf, hb]; simp, skipSC_sep hsep]
    rw [hc]; exact notSep_byte hws h37
  have hd2 : env.file.drop (env.file.length - (t ++ x).length) = t ++ x :=
    drop_of_append (a := p ++ sep) (by rw [hf]; simp)
  obtain ⟨s', e, h1, h2⟩ := objectAt_obj hag hdec hint hpk ho hd ht hw hd2 hs f (by omega)
  refine ⟨s', ?_, h1, h2⟩
  rw [bruteLoop, hsk]
  dsimp only
  have hbe : bodyElement env (f + 1) (env.file.length - (t ++ x).length) s = (.ok (env.file.length - x.length), s') := by
    generalize env.file.length - (t ++ x).length = off at hd2 e ⊢
    rw [bodyElement, hd2, hc, List.cons_append]
    dsimp only
    rw [if_pos hdig]
    exact e
  rw [hbe]
  dsimp only
  rw [bruteLoop]
  rfl

theorem bruteLoop_startxref {b : Nat} {sep s₁ ds x p : Bytes} (hf : env.file = p ++ (sep ++ (b!"startxref" ++ (s₁ ++ (ds ++ x))))) (hb : b = p.length)
    (hsep : Sep sep) (h1 : Sep s₁) (hds : Digits ds) (hx : NotStart (fun c => Digit c ∨ c = 46) x) (s : St) (fuel : Nat) :
    bruteLoop env (fuel + 2) [b] none b s = (.ok (env.file.length - x.length), s) := by
  have hsk : skipSC false (env.file.drop b) = .ok (b!"startxref" ++ (s₁ ++ (ds ++ x))) := by
    rw [show env.file.drop b = sep ++ (b!"startxref" ++ (s₁ ++ (ds ++ x))) by rw [hf, hb]; simp, skipSC_sep hsep]
    exact notSep_byte rfl (by decide)
  have hd2 : env.file.drop (env.file.length - (b!"startxref" ++ (s₁ ++ (ds ++ x))).length) = b!"startxref" ++ (s₁ ++ (ds ++ x)) :=
    drop_of_append (a := p ++ sep) (by rw [hf]; simp)
  have hsx : startxrefP (b!"startxref" ++ (s₁ ++ (ds ++ x))) = .ok (decVal ds, x) := by
    unfold startxrefP
    rw [show readN 9 (b!"startxref" ++ (s₁ ++ (ds ++ x))) = .ok (b!"startxref", s₁ ++ (ds ++ x)) from readN_append b!"startxref" _]
    dsimp only
    rw [if_pos rfl, skipSC_sep h1 (digits_notSep hds)]
    exact nonNegInt_digits hds (fun c t e h => hx c t e (Or.inl h)) (fun c t e h => hx c t e (Or.inr h))
  have hbe : bodyElement env (fuel + 1) (env.file.length - (b!"startxref" ++ (s₁ ++ (ds ++ x))).length) s = (.ok (env.file.length - x.length), s) := by
    generalize env.file.length - (b!"startxref" ++ (s₁ ++ (ds ++ x))).length = off at hd2 ⊢
    rw [bodyElement, hd2]
    have := hsx
    simp only [List.cons_append] at this ⊢
    rw [if_neg (by decide), if_pos trivial, this]
  rw [bruteLoop, hsk]
  dsimp only
  rw [hbe]
  dsimp only
  rw [bruteLoop]
  rfl

theorem drop_length {p x : Bytes} (h : env.file = p ++ x) : env.file.length - x.length = p.length := by
  rw [h]; simp

theorem Grows.restack {s s' : St} (st : List Key) (h : Grows env content { s with stack := st } s') (b : Nat) :
    Known env content { s' with bf := b, stack := s.stack } ∧ Mono s { s' with bf := b, stack := s.stack } :=
  ⟨⟨h.known.sound, h.known.closed⟩, ⟨rfl, h.mono.reg⟩⟩

theorem known_restack {s : St} (h : Known env content s) (st : List Key) : Known env content { s with stack := st } := ⟨h.sound, h.closed⟩

variable (env content revs written) in
/-- The scan stands before a sequence of elements; the objects defined before are known. -/
structure ScanAt (es : List (List ((Nat × Nat) × Obj))) (s : St) : Prop where
  known : Known env content s
  rest : ∃ pre es' body tail, env.file = pre ++ (body ++ tail) ∧ s.bf = pre.length ∧ FileBody env.decoded written env.file revs content es' body ∧
    (∀ e ∈ es', e ∈ es) ∧ ∀ e ∈ es, e ∈ es' ∨ ∀ d ∈ e, regGet s.reg d.1 = some d.2

theorem ScanAt.grows {es : List (List ((Nat × Nat) × Obj))} {s s' : St} (h : ScanAt env content revs written es s) (g : Grows env content s s') : ScanAt env content revs written es s' := by
  obtain ⟨pre, es', body, tail, h1, h2, h3, h4, h5⟩ := h.rest
  exact ⟨g.known, pre, es', body, tail, h1, g.bf.trans h2, h3, h4,
    fun e he => (h5 e he).imp id fun h d hd => g.mono.reg _ _ (h d hd)⟩

theorem bruteForce_body (hag : AllAgree env.xrefs revs) (hdec : ∀ n g o w, written n g o w → env.dec n g w = .ok o)
    (hint : ∀ n g (k : Int), env.dec n g (.int k) = .ok (.int k))
    (hpk : ∀ n g o defs, content n g = some o → Defines env.decoded n g o defs → ∀ d ∈ defs, content d.1.1 d.1.2 = some d.2)
    (es : List (List ((Nat × Nat) × Obj))) (B : Nat) (hB : ∀ e ∈ es, e.length ≤ B) {n g : Nat} {o : Obj} (ho : content n g = some o) :
    ∀ {es' : List (List ((Nat × Nat) × Obj))} {body : Bytes}, FileBody env.decoded written env.file revs content es' body → (∀ e ∈ es', e ∈ es) →
    ∀ (pre tail : Bytes) (s : St), env.file = pre ++ (body ++ tail) → s.bf = pre.length → Known env content s → (n, g) ∉ s.stack →
    (∀ e ∈ es, e ∈ es' ∨ ∀ d ∈ e, regGet s.reg d.1 = some d.2) →
    ((∃ e ∈ es', ((n, g), o) ∈ e) ∨ regGet s.reg (n, g) = some o) → ∀ fuel, body.length + B + env.xrefs.length + 14 ≤ fuel →
    ∃ s', bruteForce env fuel n g s = (.ok o, s') ∧ ScanAt env content revs written es s' ∧ s'.stack = s.stack := by
  intro es' body hbody
  have hdone : ∀ {es' : List (List ((Nat × Nat) × Obj))} {body : Bytes}, FileBody env.decoded written env.file revs content es' body → (∀ e ∈ es', e ∈ es) →
      ∀ (pre tail : Bytes) (s : St), env.file = pre ++ (body ++ tail) → s.bf = pre.length → Known env content s → (n, g) ∉ s.stack →
      (∀ e ∈ es, e ∈ es' ∨ ∀ d ∈ e, regGet s.reg d.1 = some d.2) → ∀ f, regGet s.reg (n, g) ≠ none →
      ∃ s', bruteForce env (f + 1) n g s = (.ok o, s') ∧ ScanAt env content revs written es s' ∧ s'.stack = s.stack := by
    intro es' body hbody hsub pre tail s hf hbf hs hst hall f hr
    refine ⟨s, ?_, ⟨hs, pre, es', body, tail, hf, hbf, hbody, hsub, hall⟩, rfl⟩
    cases hv : regGet s.reg (n, g) with
    | none => exact absurd hv hr
    | some v =>
      rw [bruteForce, hv, hs.sound n g o v ho hv]
  induction hbody with
  | nil =>
    intro hsub pre tail s hf hbf hs hst hall hmem fuel hfuel
    obtain ⟨f, rfl⟩ : ∃ f, fuel = f + 1 := ⟨fuel - 1, by omega⟩
    refine hdone .nil hsub pre tail s hf hbf hs hst hall f ?_
    rcases hmem with ⟨e, he, _⟩ | h
    · cases he
    · rw [h]; simp
  | obj n' g' o' w defs es2 sep t u hsep ht hw ho' hd hu ih =>
    intro hsub pre tail s hf hbf hs hst hall hmem fuel hfuel
    obtain ⟨f, rfl⟩ : ∃ f, fuel = f + 1 := ⟨fuel - 1, by omega⟩
    cases hv : regGet s.reg (n, g) with
    | some v => exact hdone (.obj n' g' o' w defs es2 sep t u hsep ht hw ho' hd hu) hsub pre tail s hf hbf hs hst hall f (by rw [hv]; simp)
    | none =>
      have hf' : env.file = pre ++ (sep ++ (t ++ (u ++ tail))) := by rw [hf]; simp
      have hf2 : env.file = (pre ++ (sep ++ t)) ++ (u ++ tail) := by rw [hf]; simp
      have htl : 0 < t.length := by
        obtain ⟨c, t', e, _⟩ := objText_head ht
        rw [e]; simp
      have hdl := hB defs (hsub defs (by simp))
      simp only [List.length_append] at hfuel
      obtain ⟨s1, e1, g1, r1⟩ := bruteLoop_obj hag hdec hint hpk ho' hd ht hw hf' hbf hsep (known_restack hs ((n, g) :: s.stack)) f (by omega)
      obtain ⟨k2, m2⟩ := g1.restack ((n, g) :: s.stack) (env.file.length - (u ++ tail).length)
      obtain ⟨s3, e3, a3, t3⟩ := ih (fun e he => hsub e (by simp [he])) (pre ++ (sep ++ t)) tail
        { s1 with bf := env.file.length - (u ++ tail).length, stack := s.stack } hf2 (drop_length hf2) k2 hst (by
          intro e he
          rcases hall e he with h | h
          · rcases List.mem_cons.mp h with rfl | h
            · exact Or.inr r1
            · exact Or.inl h
          · exact Or.inr fun d hd => m2.reg _ _ (h d hd)) (by
          rcases hmem with ⟨e, he, hm⟩ | h
          · rcases List.mem_cons.mp he with rfl | he
            · exact Or.inr (r1 _ hm)
            · exact Or.inl ⟨e, he, hm⟩
          · rw [hv] at h; cases h) f (by omega)
      refine ⟨s3, ?_, a3, t3⟩
      rw [bruteForce, hv]
      dsimp only
      rw [if_neg hst, e1]
      exact e3
  | startxref es2 sep s₁ ds u hsep h1 hds hne hu1 hu ih =>
    intro hsub pre tail s hf hbf hs hst hall hmem fuel hfuel
    obtain ⟨f, rfl⟩ : ∃ f, fuel = f + 3 := ⟨fuel - 3, by omega⟩
    cases hv : regGet s.reg (n, g) with
    | some v => exact hdone (.startxref es2 sep s₁ ds u hsep h1 hds hne hu1 hu) hsub pre tail s hf hbf hs hst hall (f + 2) (by rw [hv]; simp)
    | none =>
      have hf' : env.file = pre ++ (sep ++ (b!"startxref" ++ (s₁ ++ (ds ++ (u ++ tail))))) := by rw [hf]; simp
      have hf2 : env.file = (pre ++ (sep ++ (b!"startxref" ++ (s₁ ++ ds)))) ++ (u ++ tail) := by rw [hf]; simp
      have e1 := bruteLoop_startxref hf' hbf hsep h1 hds (x := u ++ tail) (by
        cases u with
        | nil => exact absurd rfl hne
        | cons c u' => intro c' t' e; cases e; exact hu1 c u' rfl) { s with stack := (n, g) :: s.stack } f
      simp only [List.length_append, List.length_cons, List.length_nil] at hfuel
      obtain ⟨s3, e3, a3, t3⟩ := ih hsub (pre ++ (sep ++ (b!"startxref" ++ (s₁ ++ ds)))) tail
        { s with bf := env.file.length - (u ++ tail).length } hf2 (drop_length hf2) ⟨hs.sound, hs.closed⟩ hst hall hmem (f + 2) (by omega)
      refine ⟨s3, ?_, a3, t3⟩
      rw [bruteForce, hv]
      dsimp only
      rw [if_neg hst, e1]
      exact e3

/-- Every object of the content is delivered. -/
theorem locate_content (hag : AllAgree env.xrefs revs) (hdec : ∀ n g o w, written n g o w → env.dec n g w = .ok o)
    (hint : ∀ n g (k : Int), env.dec n g (.int k) = .ok (.int k))
    (hpk : ∀ n g o defs, content n g = some o → Defines env.decoded n g o defs → ∀ d ∈ defs, content d.1.1 d.1.2 = some d.2)
    (es : List (List ((Nat × Nat) × Obj))) (B : Nat) (hB : ∀ n g o defs, content n g = some o → Defines env.decoded n g o defs → defs.length ≤ B)
    (hBe : ∀ e ∈ es, e.length ≤ B) {n g : Nat} {o : Obj} (ho : content n g = some o)
    (hin : (∃ off t rest w defs, CurrentAt revs n g off ∧ env.file.drop off = t ++ rest ∧ ObjText env.file revs content n g w t ∧ written n g o w ∧ Defines env.decoded n g o defs) ∨
      ((∀ r ∈ revs, ∀ off, r.inUse n ≠ some (off, g)) ∧ ∃ e ∈ es, ((n, g), o) ∈ e))
    {s : St} (hs : ScanAt env content revs written es s) (hst : s.stack = []) (fuel : Nat)
    (hfuel : env.file.length + B + 2 * env.xrefs.length + 20 ≤ fuel) :
    ∃ s', locate env fuel n g s = (.ok o, s') ∧ ScanAt env content revs written es s' ∧ s'.stack = [] := by
  rcases hin with ⟨off, t, rest, w, defs, h1, h2, h3, hw, h4⟩ | ⟨h1, h2⟩
  · obtain ⟨s', e, hg⟩ := locate_current hag hdec hint hpk ho h4 h3 hw h1 h2 hs.known fuel (by have := hB n g o defs ho h4; omega)
    exact ⟨s', e, hs.grows hg, by rw [hg.mono.stack, hst]⟩
  · obtain ⟨f, rfl⟩ : ∃ f, fuel = (f + 1 + env.xrefs.length) + 1 := ⟨fuel - env.xrefs.length - 2, by omega⟩
    have hno : ∀ y ∈ env.xrefs, ¬ Lists y n g := by
      intro y hy hl
      obtain ⟨r, hr, ha⟩ := agree_mem hag y hy
      obtain ⟨off, hoff⟩ := (agree_lists ha).mp hl
      exact h1 r hr off hoff
    obtain ⟨pre, es', body, tail, f1, f2, f3, f4, f5⟩ := hs.rest
    have hlen : body.length ≤ env.file.length := by rw [f1]; simp; omega
    obtain ⟨s', e, a, t⟩ := bruteForce_body hag hdec hint hpk es B hBe ho f3 f4 pre tail s f1 f2 hs.known (by rw [hst]; simp) f5 (by
      obtain ⟨e, he, hm⟩ := h2
      rcases f5 e he with h | h
      · exact Or.inl ⟨e, h, hm⟩
      · exact Or.inr (h _ hm)) (f + 1 + env.xrefs.length) (by omega)
    have hx := byXref_unlisted env n g s env.xrefs f hno
    rw [locate]
    cases hk : regGet s.reg (n, g) with
    | none =>
      dsimp only
      rw [hx]
      exact ⟨s', e, a, by rw [t, hst]⟩
    | some v =>
      dsimp only
      have := hs.known.sound n g o v ho hk
      subst this
      split
      · exact ⟨s, rfl, hs, hst⟩
      · rw [hx]
        exact ⟨s', e, a, by rw [t, hst]⟩
end

end PdfReader
