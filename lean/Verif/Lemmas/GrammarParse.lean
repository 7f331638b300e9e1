/-
  Every text of the grammar of Verif/Spec/Grammar.lean is parsed to what it denotes.
-/
import Verif.Lemmas.Grammar

namespace PdfReader
open Spec

theorem filterMap_congr' {α β : Type} {f g : α → Option β} {l : List α} (h : ∀ x ∈ l, f x = g x) :
    l.filterMap f = l.filterMap g := by
  induction l with
  | nil => rfl
  | cons a l ih =>
    rw [List.filterMap_cons, List.filterMap_cons, h a (by simp), ih (fun x hx => h x (by simp [hx]))]

/-! Dictionaries: the last value of a key wins, keys keep the order of first occurrence -/

theorem lastVal_snoc (raw : List (Bytes × Obj)) (k : Bytes) (v : Obj) (k' : Bytes) :
    lastVal (raw ++ [(k, v)]) k' = if k = k' then some v else lastVal raw k' := by
  unfold lastVal
  rw [List.reverse_append, List.reverse_singleton, List.singleton_append, List.find?_cons]
  by_cases h : k = k'
  · simp [h]
  · have : (k == k') = false := by simpa using h
    simp [h, this]

theorem lastVal_isSome {raw : List (Bytes × Obj)} {k : Bytes} (h : k ∈ raw.map (·.1)) :
    (lastVal raw k).isSome := by
  unfold lastVal
  rw [Option.isSome_map, List.find?_isSome]
  obtain ⟨e, he, hk⟩ := List.mem_map.mp h
  exact ⟨e, by simpa using he, by simpa using hk⟩

theorem dictSet_absent (es : List (Bytes × Obj)) (k : Bytes) (v : Obj) (h : k ∉ es.map (·.1)) :
    dictSet es k v = es ++ [(k, v)] := by
  induction es with
  | nil => rfl
  | cons e es ih =>
    simp only [List.map_cons, List.mem_cons, not_or] at h
    rw [dictSet, if_neg (fun e => h.1 e.symm), ih h.2]; rfl

theorem dictSet_filterMap (ks : List Bytes) (hn : ks.Nodup) (g : Bytes → Option Obj) (k : Bytes) (v : Obj)
    (hk : k ∈ ks) (hg : ∀ k ∈ ks, (g k).isSome) :
    dictSet (ks.filterMap (fun k => (g k).map (fun v => (k, v)))) k v =
      ks.filterMap (fun k' => (if k = k' then some v else g k').map (fun v => (k', v))) := by
  induction ks with
  | nil => cases hk
  | cons k0 ks ih =>
    obtain ⟨hn0, hn1⟩ := List.nodup_cons.mp hn
    obtain ⟨v0, hv0⟩ := Option.isSome_iff_exists.mp (hg k0 (by simp))
    rw [List.filterMap_cons, hv0]
    simp only [Option.map_some]
    rw [dictSet]
    by_cases h : k0 = k
    · subst h
      rw [if_pos rfl, List.filterMap_cons, if_pos rfl]
      simp only [Option.map_some]
      congr 1
      apply filterMap_congr'
      intro k' hk'
      have : k0 ≠ k' := fun e => hn0 (e ▸ hk')
      rw [if_neg this]
    · rw [if_neg h, List.filterMap_cons, if_neg (fun e => h e.symm), hv0]
      simp only [Option.map_some]
      rw [ih hn1 ((List.mem_cons.mp hk).resolve_left (fun e => h e.symm)) (fun k hk => hg k (by simp [hk]))]

theorem nodup_eraseDups (l : List Bytes) : l.eraseDups.Nodup := by
  generalize hn : l.length = n
  induction n using Nat.strongRecOn generalizing l with
  | _ n ih =>
    cases l with
    | nil => simp
    | cons a l =>
      rw [List.eraseDups_cons]
      refine List.nodup_cons.mpr ⟨?_, ?_⟩
      · intro h
        rw [List.mem_eraseDups] at h
        simp at h
      · exact ih _ (by subst hn; have := List.length_filter_le (fun b => !b == a) l; simp only [List.length_cons]; omega) _ rfl

theorem dictOf_snoc (raw : List (Bytes × Obj)) (k : Bytes) (v : Obj) :
    dictOf (raw ++ [(k, v)]) = dictSet (dictOf raw) k v := by
  have hl : (fun k' => (lastVal (raw ++ [(k, v)]) k').map (fun v => (k', v))) =
      (fun k' => (if k = k' then some v else lastVal raw k').map (fun v => (k', v))) := by
    funext k'; rw [lastVal_snoc]
  unfold dictOf
  rw [hl, List.map_append, List.eraseDups_append]
  by_cases hk : k ∈ raw.map (·.1)
  · have : ([(k, v)].map (·.1)).removeAll (raw.map (·.1)) = [] := by
      simp only [List.removeAll, List.map_cons, List.map_nil]
      rw [List.filter_eq_nil_iff]
      intro a ha
      simp only [List.mem_singleton] at ha
      subst ha
      simp only [List.elem_eq_mem, Bool.not_eq_true', decide_eq_false_iff_not, Decidable.not_not]
      exact hk
    rw [this]
    simp only [List.eraseDups_nil, List.append_nil]
    rw [dictSet_filterMap _ (nodup_eraseDups _) (lastVal raw) k v (by simpa using hk)]
    intro k' hk'
    exact lastVal_isSome (by simpa using hk')
  · have : ([(k, v)].map (·.1)).removeAll (raw.map (·.1)) = [k] := by
      simp only [List.removeAll, List.map_cons, List.map_nil]
      rw [List.filter_eq_self]
      intro a ha
      simp only [List.mem_singleton] at ha
      subst ha
      simp only [List.elem_eq_mem, Bool.not_eq_true', decide_eq_false_iff_not]
      exact hk
    rw [this, List.filterMap_append]
    have h1 : (raw.map (·.1)).eraseDups.filterMap
        (fun k' => (if k = k' then some v else lastVal raw k').map (fun v => (k', v))) =
        (raw.map (·.1)).eraseDups.filterMap (fun k' => (lastVal raw k').map (fun v => (k', v))) := by
      apply filterMap_congr'
      intro k' hk'
      have : k ≠ k' := by
        intro e; subst e
        exact hk (by simpa using hk')
      rw [if_neg this]
    rw [h1, dictSet_absent]
    · have : List.eraseDups [k] = [k] := rfl
      rw [this]; simp
    · intro h
      obtain ⟨e, he, hk'⟩ := List.mem_map.mp h
      obtain ⟨k'', hk'', hv⟩ := List.mem_filterMap.mp he
      cases hlv : lastVal raw k'' with
      | none => rw [hlv] at hv; cases hv
      | some w =>
        rw [hlv] at hv
        simp only [Option.map_some, Option.some.injEq] at hv
        subst hv
        simp only at hk'
        subst hk'
        exact hk (by simpa using hk'')

theorem foldl_dictSet_aux (es raw : List (Bytes × Obj)) :
    es.foldl (fun d e => dictSet d e.1 e.2) (dictOf raw) = dictOf (raw ++ es) := by
  induction es generalizing raw with
  | nil => simp
  | cons e es ih =>
    obtain ⟨k, v⟩ := e
    rw [List.foldl_cons, ← dictOf_snoc, ih]; simp

theorem foldl_dictSet (es : List (Bytes × Obj)) :
    es.foldl (fun d e => dictSet d e.1 e.2) [] = dictOf es := by
  have := foldl_dictSet_aux es []
  simpa [dictOf] using this

/-! First bytes -/

/-- First byte of an object text. -/
def objStart (c : Byte) : Bool := (b!"nft0123456789+-./(<[").contains c

theorem objStart_facts : ∀ c : Byte, objStart c = true →
    isWs c = false ∧ c ≠ 37 ∧ c ≠ 82 ∧ c ≠ 93 ∧ c ≠ 62 ∧ c ≠ 115 :=
  forall_u8 (fun c => objStart c = true → isWs c = false ∧ c ≠ 37 ∧ c ≠ 82 ∧ c ≠ 93 ∧ c ≠ 62 ∧ c ≠ 115)
    (by decide +kernel)

theorem digit_objStart : ∀ c : Byte, isDigit c = true → objStart c = true :=
  forall_u8 (fun c => isDigit c = true → objStart c = true) (by decide +kernel)

theorem signed_head {neg : Bool} {sg ds : Bytes} (hs : SignText neg sg) (hd : Digits ds) (x : Bytes) :
    ∃ c t, sg ++ (ds ++ x) = c :: t ∧ (isDigit c = true ∨ c = 43 ∨ c = 45) := by
  obtain ⟨c, t, rfl, hc⟩ := digits_head hd
  rcases hs with ⟨_, h | h⟩ | ⟨_, h⟩ <;> subst h
  · exact ⟨c, t ++ x, rfl, Or.inl hc⟩
  · exact ⟨43, _, rfl, Or.inr (Or.inl rfl)⟩
  · exact ⟨45, _, rfl, Or.inr (Or.inr rfl)⟩

theorem den_head {refs : Bool} {o : Obj} {t : Bytes} (h : Den refs (.obj o) t) :
    ∃ c t', t = c :: t' ∧ objStart c = true := by
  have sgn : ∀ {c}, (isDigit c = true ∨ c = 43 ∨ c = 45) → objStart c = true := by
    rintro c (h | rfl | rfl)
    · exact digit_objStart c h
    · rfl
    · rfl
  cases h with
  | null => exact ⟨_, _, rfl, rfl⟩
  | true => exact ⟨_, _, rfl, rfl⟩
  | false => exact ⟨_, _, rfl, rfl⟩
  | int n t hi =>
    cases hi with
    | mk neg sg ds h1 h2 =>
      obtain ⟨c, t', e, hc⟩ := signed_head h1 h2 []
      rw [List.append_nil] at e
      exact ⟨c, t', e, sgn hc⟩
  | real c e t hr _ =>
    cases hr with
    | frac neg sg ip fp h1 h2 h3 =>
      cases ip with
      | nil =>
        rcases h1 with ⟨_, h | h⟩ | ⟨_, h⟩ <;> subst h <;> exact ⟨_, _, rfl, rfl⟩
      | cons c ip =>
        obtain ⟨c', t', e, hc⟩ := signed_head h1 ⟨List.cons_ne_nil c ip, h2⟩ (46 :: fp)
        exact ⟨c', t', e, sgn hc⟩
    | nofrac neg sg ip h1 h2 =>
      obtain ⟨c', t', e, hc⟩ := signed_head h1 h2 [46]
      exact ⟨c', t', e, sgn hc⟩
  | name n t _ => exact ⟨_, _, rfl, rfl⟩
  | str v t _ => exact ⟨_, _, rfl, rfl⟩
  | hex d t _ => exact ⟨_, _, rfl, rfl⟩
  | ref ds gs s1 s2 _ h1 _ _ _ _ _ =>
    obtain ⟨c, t, rfl, hc⟩ := digits_head h1
    exact ⟨c, _, rfl, digit_objStart c hc⟩
  | arr os u _ => exact ⟨_, _, rfl, rfl⟩
  | dict raw u _ => exact ⟨_, _, rfl, rfl⟩

theorem objStart_notSep {c : Byte} {t : Bytes} (h : objStart c = true) : NotStart SepChar (c :: t) := by
  apply notStart_mk
  obtain ⟨h1, h2, _⟩ := objStart_facts c h
  rintro (h | h)
  · rw [ws_iff, h1] at h; cases h
  · exact h2 h

/-! Lookahead for references -/

theorem spanDigits_inv {x ip r : Bytes} (h : spanDigits x = (ip, r)) :
    x = ip ++ r ∧ (∀ c ∈ ip, Digit c) ∧ NotStart Digit r := by
  induction x generalizing ip r with
  | nil => simp [spanDigits] at h; obtain ⟨rfl, rfl⟩ := h; exact ⟨rfl, by simp, notStart_nil⟩
  | cons c x ih =>
    unfold spanDigits at h
    split at h
    · rename_i hc
      simp only [Prod.mk.injEq] at h
      obtain ⟨rfl, rfl⟩ := h
      obtain ⟨h1, h2, h3⟩ := ih (ip := (spanDigits x).1) (r := (spanDigits x).2) rfl
      refine ⟨by rw [List.cons_append, ← h1], ?_, h3⟩
      intro c' hc'
      rcases List.mem_cons.mp hc' with rfl | hm
      · exact (digit_iff _).mpr hc
      · exact h2 _ hm
    · rename_i hc
      simp only [Prod.mk.injEq] at h
      obtain ⟨rfl, rfl⟩ := h
      exact ⟨rfl, by simp, notStart_mk (by rw [digit_iff]; exact hc)⟩

theorem readSign_inv {x r : Bytes} {neg : Bool} (h : readSign x = (neg, r)) :
    ∃ sg, x = sg ++ r ∧ SignText neg sg := by
  unfold readSign at h
  split at h <;> cases h
  · exact ⟨[43], rfl, Or.inl ⟨rfl, Or.inr rfl⟩⟩
  · exact ⟨[45], rfl, Or.inr ⟨rfl, rfl⟩⟩
  · exact ⟨[], rfl, Or.inl ⟨rfl, Or.inl rfl⟩⟩

theorem numeric_err {x : Bytes} {e : Exc} (h : numeric x = .error e) : e = .parser := by
  unfold numeric at h
  simp only at h
  split at h
  · split at h
    · cases h; rfl
    · split at h <;> cases h
  · split at h <;> cases h; rfl

theorem negReal_ne_int (n c : Nat) (e m : Int) : negReal n c e ≠ .int m := by
  unfold negReal
  split
  · simp
  · simp only
    generalize (if 2 * (c % 10 ^ (decLen n c - 28)) > 10 ^ (decLen n c - 28) ∨
      2 * (c % 10 ^ (decLen n c - 28)) = 10 ^ (decLen n c - 28) ∧ c / 10 ^ (decLen n c - 28) % 2 = 1
      then c / 10 ^ (decLen n c - 28) + 1 else c / 10 ^ (decLen n c - 28)) = q
    split <;> simp

theorem numeric_int_inv {x r : Bytes} {n : Int} (h : numeric x = .ok (.int n, r)) :
    ∃ neg sg ds, x = sg ++ (ds ++ r) ∧ SignText neg sg ∧ Digits ds ∧ NotStart Digit r ∧
      n = if neg then -(decVal ds : Int) else decVal ds := by
  unfold numeric at h
  cases e1 : readSign x with
  | mk neg r0 =>
    rw [e1] at h
    simp only at h
    cases e2 : spanDigits r0 with
    | mk ip r1 =>
      rw [e2] at h
      simp only at h
      obtain ⟨sg, hx, hsg⟩ := readSign_inv e1
      obtain ⟨hr, hd, hn⟩ := spanDigits_inv e2
      split at h
      · split at h
        · cases h
        · split at h
          · exfalso
            simp only [Except.ok.injEq, Prod.mk.injEq] at h
            exact negReal_ne_int _ _ _ _ h.1
          · simp at h
      · split at h
        · cases h
        · rename_i hne
          simp only [Except.ok.injEq, Prod.mk.injEq, Obj.int.injEq] at h
          obtain ⟨h1, h2⟩ := h
          subst h2
          refine ⟨neg, sg, ip, by rw [hx, hr], hsg, ⟨hne, hd⟩, hn, ?_⟩
          rw [← h1, natOfDigits_eq]

theorem nonNegInt_err {x : Bytes} {e : Exc} (h : nonNegInt x = .error e) : e = .parser := by
  unfold nonNegInt at h
  split at h
  · rename_i e' he; cases h; exact numeric_err he
  · split at h <;> cases h; rfl
  · cases h; rfl

theorem nonNegInt_inv {x r : Bytes} {n : Nat} (h : nonNegInt x = .ok (n, r)) :
    ∃ neg sg ds, x = sg ++ (ds ++ r) ∧ SignText neg sg ∧ Digits ds ∧ NotStart Digit r := by
  unfold nonNegInt at h
  split at h
  · cases h
  · rename_i m r' he
    split at h
    · cases h
    · simp only [Except.ok.injEq, Prod.mk.injEq] at h
      obtain ⟨_, rfl⟩ := h
      obtain ⟨neg, sg, ds, h1, h2, h3, h4, _⟩ := numeric_int_inv he
      exact ⟨neg, sg, ds, h1, h2, h3, h4⟩
  · cases h

/-- A number not followed by the rest of a reference. -/
theorem numericOrRef_int {ds s r : Bytes} (hd : Digits ds) (hs : Sep s) (hr : NotStart SepChar r)
    (hstop : Stop (s ++ r)) (hl : LookOk r) :
    numericOrRef (ds ++ (s ++ r)) = .ok (.int (decVal ds), s ++ r) := by
  have h46 : NotStart (· = 46) (s ++ r) := stop_ne hstop rfl
  have hnum : numeric (ds ++ (s ++ r)) = .ok (.int (decVal ds), s ++ r) := by
    have := numeric_int (x := s ++ r) (IntText.mk false [] ds (Or.inl ⟨rfl, Or.inl rfl⟩) hd)
      (stop_digit hstop) h46
    simpa using this
  have hir : indirectRef (ds ++ (s ++ r)) = .error .parser := by
    unfold indirectRef
    rw [nonNegInt_digits hd (stop_digit hstop) h46]
    simp only
    rw [skipSC_sep hs hr]
    simp only
    cases e : nonNegInt r with
    | error e' => rw [nonNegInt_err e]
    | ok p =>
      obtain ⟨g, r2⟩ := p
      simp only
      obtain ⟨neg, sg, gs, h1, h2, h3, h4⟩ := nonNegInt_inv e
      obtain ⟨s', r', e1, h5, h6, h7⟩ := hl neg sg gs r2 h1 h2 h3 h4
      rw [e1, skipSC_sep h5 h6]
      cases r' with
      | nil => rfl
      | cons c t =>
        have : c ≠ 82 := h7 c t rfl
        simp [this]
  unfold numericOrRef
  rw [hir]
  exact hnum

theorem numericOrRef_ref {ds gs s1 s2 x : Bytes} (hd : Digits ds) (hg : Digits gs) (h1 : Sep s1) (n1 : s1 ≠ [])
    (h2 : Sep s2) (n2 : s2 ≠ []) :
    numericOrRef (ds ++ (s1 ++ (gs ++ (s2 ++ 82 :: x)))) = .ok (.ref (decVal ds) (decVal gs), x) := by
  have st1 : Stop (s1 ++ (gs ++ (s2 ++ 82 :: x))) := stop_sep h1 n1
  have st2 : Stop (s2 ++ 82 :: x) := stop_sep h2 n2
  have r1 : NotStart SepChar (gs ++ (s2 ++ 82 :: x)) := by
    obtain ⟨c, t, rfl, hc⟩ := digits_head hg
    exact objStart_notSep (digit_objStart c hc)
  have r2 : NotStart SepChar (82 :: x) := by
    apply notStart_mk
    rintro (h | h)
    · rw [ws_iff] at h; cases h
    · cases h
  unfold numericOrRef indirectRef
  rw [nonNegInt_digits hd (stop_digit st1) (stop_ne st1 rfl)]
  simp only
  rw [skipSC_sep h1 r1]
  simp only
  rw [nonNegInt_digits hg (stop_digit st2) (stop_ne st2 rfl)]
  simp only
  rw [skipSC_sep h2 r2]
  simp

/-- The text of a number is determined by what `readSign` and `spanDigits` read. -/
theorem signed_unique {neg neg' : Bool} {sg sg' ds ds' r r' : Bytes} (h1 : SignText neg sg) (h2 : Digits ds)
    (h3 : NotStart Digit r) (h1' : SignText neg' sg') (h2' : ∀ c ∈ ds', Digit c) (h3' : NotStart Digit r')
    (hns : NotStart (fun c => c = 43 ∨ c = 45) (ds' ++ r'))
    (e : sg' ++ (ds' ++ r') = sg ++ (ds ++ r)) : r = r' := by
  have a := readSign_text h1 (notSign_of_digits (x := r) h2)
  have b := readSign_text h1' hns
  rw [e, a] at b
  simp only [Prod.mk.injEq] at b
  have c := spanDigits_append h2.2 h3
  have d := spanDigits_append h2' h3'
  rw [← b.2, c] at d
  simp only [Prod.mk.injEq] at d
  exact d.2

theorem den_lookOk {refs : Bool} {o : Obj} {t s r : Bytes} (h : Den refs (.obj o) t) (hs : Sep s)
    (hr : NotStart SepChar r) (hR : NotStart (· = 82) r) (hstop : needsStop o = true → Stop (s ++ r)) :
    LookOk (t ++ (s ++ r)) := by
  intro neg sg ds r1 heq hsg hds hr1
  have nohead : ∀ c t', t = c :: t' → isDigit c = false → c ≠ 43 → c ≠ 45 → False := by
    intro c t' e h1 h2 h3
    obtain ⟨c', t'', e', hc⟩ := signed_head hsg hds r1
    rw [← heq, e] at e'
    cases e'
    rcases hc with hc | hc | hc
    · rw [h1] at hc; cases hc
    · exact h2 hc
    · exact h3 hc
  cases h with
  | null => exact (nohead _ _ rfl rfl (by decide) (by decide)).elim
  | true => exact (nohead _ _ rfl rfl (by decide) (by decide)).elim
  | false => exact (nohead _ _ rfl rfl (by decide) (by decide)).elim
  | name n t _ => exact (nohead _ _ rfl rfl (by decide) (by decide)).elim
  | str v t _ => exact (nohead _ _ rfl rfl (by decide) (by decide)).elim
  | hex d t _ => exact (nohead _ _ rfl rfl (by decide) (by decide)).elim
  | arr os u _ => exact (nohead _ _ rfl rfl (by decide) (by decide)).elim
  | dict raw u _ => exact (nohead _ _ rfl rfl (by decide) (by decide)).elim
  | int n t hi =>
    have hst := hstop rfl
    cases hi with
    | mk neg' sg' ds' h1 h2 =>
      rw [List.append_assoc] at heq
      have := signed_unique hsg hds hr1 h1 h2.2 (stop_digit hst) (notSign_of_digits h2) heq
      exact ⟨s, r, this, hs, hr, hR⟩
  | ref ds' gs s1 s2 _ h1 h2 h3 n3 h4 n4 =>
    have e : ([] : Bytes) ++ (ds' ++ (s1 ++ (gs ++ (s2 ++ [82]) ++ (s ++ r)))) = sg ++ (ds ++ r1) := by
      rw [← heq]; simp
    have st : Stop (s1 ++ (gs ++ (s2 ++ [82]) ++ (s ++ r))) := stop_sep h3 n3
    have := signed_unique hsg hds hr1 (neg' := false) (Or.inl ⟨rfl, Or.inl rfl⟩) h1.2 (stop_digit st)
      (notSign_of_digits h1) e
    obtain ⟨c, t, rfl, hc⟩ := digits_head h2
    refine ⟨s1, _, this, h3, objStart_notSep (digit_objStart c hc), ?_⟩
    apply notStart_mk
    exact (objStart_facts c (digit_objStart c hc)).2.2.1
  | real c e t hreal _ =>
    have fin : ∀ (ip z : Bytes) (neg' sg'), SignText neg' sg' → (∀ c ∈ ip, Digit c) →
        sg' ++ (ip ++ 46 :: z) = sg ++ (ds ++ r1) →
        ∃ s r₂, r1 = s ++ r₂ ∧ Sep s ∧ NotStart SepChar r₂ ∧ NotStart (· = 82) r₂ := by
      intro ip z neg' sg' h1 h2 he
      have hns : NotStart (fun c => c = 43 ∨ c = 45) (ip ++ 46 :: z) := by
        cases ip with
        | nil => exact notStart_mk (by decide)
        | cons c ip => exact notSign_of_digits (ds := c :: ip) ⟨List.cons_ne_nil _ _, h2⟩
      have h46 : NotStart Digit (46 :: z) := notStart_mk (by rw [digit_iff]; decide)
      have := signed_unique hsg hds hr1 h1 h2 h46 hns he
      exact ⟨[], _, this, .nil, objStart_notSep rfl, notStart_mk (by decide)⟩
    cases hreal with
    | frac neg' sg' ip fp h1 h2 h3 =>
      exact fin ip (fp ++ (s ++ r)) neg' sg' h1 h2 (by rw [← heq]; simp)
    | nofrac neg' sg' ip h1 h2 =>
      exact fin ip (s ++ r) neg' sg' h1 h2.2 (by rw [← heq]; simp)

/-! Splitting the content of arrays and dictionaries -/

structure GoodRest (r : Bytes) : Prop where
  sep : NotStart SepChar r
  noR : NotStart (· = 82) r
  noS : NotStart (· = 115) r
  look : LookOk r

theorem goodRest_of_char {c : Byte} {t : Bytes} (h1 : isWs c = false) (h2 : c ≠ 37) (h3 : c ≠ 82) (h4 : c ≠ 115)
    (h5 : isDigit c = false) (h6 : c ≠ 43) (h7 : c ≠ 45) : GoodRest (c :: t) := by
  refine ⟨notStart_mk ?_, notStart_mk h3, notStart_mk h4, ?_⟩
  · rintro (h | h)
    · rw [ws_iff, h1] at h; cases h
    · exact h2 h
  · intro neg sg ds r1 heq hsg hds _
    obtain ⟨c', t', e, hc⟩ := signed_head hsg hds r1
    rw [← heq] at e
    cases e
    rcases hc with hc | hc | hc
    · rw [h5] at hc; cases hc
    · exact (h6 hc).elim
    · exact (h7 hc).elim

def SplitP (x : Syn) (u : Bytes) : Prop :=
  match x with
  | .obj _ => True
  | .items _ => ∃ s u', u = s ++ u' ∧ Sep s ∧ ∀ x, GoodRest (u' ++ 93 :: x)
  | .ents _ => ∃ s u', u = s ++ u' ∧ Sep s ∧ ∀ x, GoodRest (u' ++ 62 :: 62 :: x)

theorem goodRest_obj {refs : Bool} {o : Obj} {t s r : Bytes} (h : Den refs (.obj o) t) (hs : Sep s)
    (hr : GoodRest r) (hstop : needsStop o = true → Stop (s ++ r)) : GoodRest (t ++ (s ++ r)) := by
  have hl := den_lookOk h hs hr.sep hr.noR hstop
  obtain ⟨c, t', rfl, hc⟩ := den_head h
  obtain ⟨h1, h2, h3, h4, h5, h6⟩ := objStart_facts c hc
  exact ⟨objStart_notSep hc, notStart_mk h3, notStart_mk h6, hl⟩

theorem den_split {refs : Bool} {x : Syn} {u : Bytes} (h : Den refs x u) : SplitP x u := by
  induction h with
  | itemsNil s hs =>
    exact ⟨s, [], by simp, hs, fun x => goodRest_of_char rfl (by decide) (by decide) (by decide) rfl (by decide) (by decide)⟩
  | entsNil s hs =>
    exact ⟨s, [], by simp, hs, fun x => goodRest_of_char rfl (by decide) (by decide) (by decide) rfl (by decide) (by decide)⟩
  | itemsCons s o t os u hs ho hst hu iho ihu =>
    obtain ⟨s', u', rfl, hs', hg⟩ := ihu
    refine ⟨s, t ++ (s' ++ u'), rfl, hs, fun x => ?_⟩
    rw [List.append_assoc, List.append_assoc]
    refine goodRest_obj ho hs' (hg x) ?_
    intro hn
    rw [← List.append_assoc]
    refine notStart_append (hst hn) (notStart_mk ?_)
    rw [regular_iff]; decide
  | entsCons s k kt s1 v t es u hs _ _ _ _ _ _ _ ihu =>
    refine ⟨s, _, rfl, hs, fun x => ?_⟩
    exact goodRest_of_char rfl (by decide) (by decide) (by decide) rfl (by decide) (by decide)
  | _ => trivial

/-! Fuel -/

theorem arrLoop_more {cfg : Cfg} {f g : Nat} {inp : Bytes} {x} (hle : f ≤ g)
    (h : arrLoop cfg f inp = .ok x) : arrLoop cfg g inp = .ok x := by
  induction hle with
  | refl => exact h
  | step _ ih =>
    rcases (fuel_mono _).2.1 cfg inp with h' | h'
    · rw [ih] at h'; cases h'
    · rw [h', ih]

theorem dictLoop_more {cfg : Cfg} {f g : Nat} {acc inp} {x} (hle : f ≤ g)
    (h : dictLoop cfg f acc inp = .ok x) : dictLoop cfg g acc inp = .ok x := by
  induction hle with
  | refl => exact h
  | step _ ih =>
    rcases (fuel_mono _).2.2.1 cfg acc inp with h' | h'
    · rw [ih] at h'; cases h'
    · rw [h', ih]

theorem objectP_okmore {cfg : Cfg} {f g : Nat} {inp : Bytes} {x} (hle : f ≤ g)
    (h : objectP cfg f inp = .ok x) : objectP cfg g inp = .ok x := by
  rw [objectP_more hle (by rw [h]; simp), h]

/-! The main induction -/

theorem objectP_start {cfg : Cfg} {f : Nat} {c : Byte} {x : Bytes} (h : objStart c = true) :
    objectP cfg (f + 1) (c :: x) = objBody cfg (fun i => dictLoop cfg f [] i) (fun i => arrLoop cfg f i)
      (fun i => imageP f i) c x := by
  rw [objectP, skipSC_nonsep (objStart_notSep h)]

theorem spanRegular_append {t x : Bytes} (ht : ∀ c ∈ t, isRegular c = true) (hx : Stop x) :
    spanRegular (t ++ x) = (t, x) := by
  induction t with
  | nil =>
    cases x with
    | nil => rfl
    | cons c x =>
      have := notStart_cons hx
      rw [regular_iff] at this
      simp [spanRegular, this]
  | cons c t ih =>
    simp [spanRegular, ht c (by simp), ih (fun c h => ht c (by simp [h]))]

theorem keyword_text (kw : Bytes) (v : Obj) (x : Bytes) : keyword kw v (kw ++ x) = .ok (v, x) := by
  unfold keyword readN
  have : ¬ (kw ++ x).length < kw.length := by simp
  rw [if_neg this]
  simp

theorem objBody_null (cfg : Cfg) (D A I) (x : Bytes) (hx : Stop x) :
    objBody cfg D A I 110 (b!"ull" ++ x) = .ok (.null, x) := by
  unfold objBody
  have hk : (110 : Byte) :: (b!"ull" ++ x) = b!"null" ++ x := rfl
  rw [hk]
  by_cases h : cfg.kind = .content
  · rw [if_pos ⟨h, Or.inl rfl⟩]
    unfold nullFalseTrueToken tokenP
    have : (!isRegular 110 || isDigit 110) = false := rfl
    simp only [List.cons_append, this]
    have hs : spanRegular (110 :: 117 :: 108 :: 108 :: ([] ++ x)) = (b!"null", x) := spanRegular_append (t := b!"null") (by decide) hx
    rw [hs]; simp
  · rw [if_neg (fun hh => h hh.1)]
    rw [if_neg (by decide), if_neg (by decide), if_neg (by decide), if_pos rfl]
    exact keyword_text _ _ _

theorem objBody_true (cfg : Cfg) (D A I) (x : Bytes) (hx : Stop x) :
    objBody cfg D A I 116 (b!"rue" ++ x) = .ok (.bool true, x) := by
  unfold objBody
  have hk : (116 : Byte) :: (b!"rue" ++ x) = b!"true" ++ x := rfl
  rw [hk]
  by_cases h : cfg.kind = .content
  · rw [if_pos ⟨h, Or.inr (Or.inr rfl)⟩]
    unfold nullFalseTrueToken tokenP
    have : (!isRegular 116 || isDigit 116) = false := rfl
    simp only [List.cons_append, this]
    have hs : spanRegular (116 :: 114 :: 117 :: 101 :: ([] ++ x)) = (b!"true", x) := spanRegular_append (t := b!"true") (by decide) hx
    rw [hs]; simp
  · rw [if_neg (fun hh => h hh.1)]
    rw [if_neg (by decide), if_neg (by decide), if_neg (by decide), if_neg (by decide), if_neg (by decide), if_pos rfl]
    exact keyword_text _ _ _

theorem objBody_false (cfg : Cfg) (D A I) (x : Bytes) (hx : Stop x) :
    objBody cfg D A I 102 (b!"alse" ++ x) = .ok (.bool false, x) := by
  unfold objBody
  have hk : (102 : Byte) :: (b!"alse" ++ x) = b!"false" ++ x := rfl
  rw [hk]
  by_cases h : cfg.kind = .content
  · rw [if_pos ⟨h, Or.inr (Or.inl rfl)⟩]
    unfold nullFalseTrueToken tokenP
    have : (!isRegular 102 || isDigit 102) = false := rfl
    simp only [List.cons_append, this]
    have hs : spanRegular (102 :: 97 :: 108 :: 115 :: 101 :: ([] ++ x)) = (b!"false", x) :=
      spanRegular_append (t := b!"false") (by decide) hx
    rw [hs]; simp
  · rw [if_neg (fun hh => h hh.1)]
    rw [if_neg (by decide), if_neg (by decide), if_neg (by decide), if_neg (by decide), if_pos rfl]
    exact keyword_text _ _ _

theorem objBody_notKw {cfg : Cfg} {c : Byte} (h : c ≠ 110 ∧ c ≠ 102 ∧ c ≠ 116) :
    ¬ (cfg.kind = .content ∧ (c = 110 ∨ c = 102 ∨ c = 116)) := by
  rintro ⟨_, h' | h' | h'⟩
  · exact h.1 h'
  · exact h.2.1 h'
  · exact h.2.2 h'

theorem objBody_digit {cfg : Cfg} {D A I} {c : Byte} {x : Bytes} (hc : isDigit c = true) :
    objBody cfg D A I c x = if cfg.refs then numericOrRef (c :: x) else numeric (c :: x) := by
  have key : ∀ c : Byte, isDigit c = true → (c ≠ 110 ∧ c ≠ 102 ∧ c ≠ 116) ∧ c ≠ 60 ∧ c ≠ 91 ∧ c ≠ 40 ∧
      ¬ (c = 43 ∨ c = 45 ∨ c = 46) :=
    forall_u8 (fun c => isDigit c = true → (c ≠ 110 ∧ c ≠ 102 ∧ c ≠ 116) ∧ c ≠ 60 ∧ c ≠ 91 ∧ c ≠ 40 ∧
      ¬ (c = 43 ∨ c = 45 ∨ c = 46)) (by decide +kernel)
  obtain ⟨h1, h2, h3, h4, h5⟩ := key c hc
  unfold objBody
  rw [if_neg (objBody_notKw h1), if_neg h2, if_neg h3, if_neg h4, if_neg h1.1, if_neg h1.2.1, if_neg h1.2.2,
    if_neg h5, if_pos hc]

theorem objBody_sign {cfg : Cfg} {D A I} {c : Byte} {x : Bytes} (hc : c = 43 ∨ c = 45 ∨ c = 46) :
    objBody cfg D A I c x = numeric (c :: x) := by
  have h1 : c ≠ 110 ∧ c ≠ 102 ∧ c ≠ 116 := by rcases hc with rfl | rfl | rfl <;> decide
  have h2 : c ≠ 60 := by rcases hc with rfl | rfl | rfl <;> decide
  have h3 : c ≠ 91 := by rcases hc with rfl | rfl | rfl <;> decide
  have h4 : c ≠ 40 := by rcases hc with rfl | rfl | rfl <;> decide
  unfold objBody
  rw [if_neg (objBody_notKw h1), if_neg h2, if_neg h3, if_neg h4, if_neg h1.1, if_neg h1.2.1, if_neg h1.2.2,
    if_pos hc]

theorem objBody_name {cfg : Cfg} {D A I} {x : Bytes} : objBody cfg D A I 47 x = nameObj (47 :: x) := by
  unfold objBody
  rw [if_neg (objBody_notKw (by decide)), if_neg (by decide), if_neg (by decide), if_neg (by decide),
    if_neg (by decide), if_neg (by decide), if_neg (by decide), if_neg (by decide), if_neg (by decide),
    if_pos rfl]

theorem objBody_str {cfg : Cfg} {D A I} {x : Bytes} : objBody cfg D A I 40 x = stringP x := by
  unfold objBody
  rw [if_neg (objBody_notKw (by decide)), if_neg (by decide), if_neg (by decide), if_pos rfl]

theorem objBody_arr {cfg : Cfg} {D A I} {x : Bytes} : objBody cfg D A I 91 x = arrayP A x := by
  unfold objBody
  rw [if_neg (objBody_notKw (by decide)), if_neg (by decide), if_pos rfl]

theorem objBody_lt {cfg : Cfg} {D A I} {x : Bytes} : objBody cfg D A I 60 x = dictOrHex cfg D x := by
  unfold objBody
  rw [if_neg (objBody_notKw (by decide)), if_pos rfl]

theorem leftover_skip {o : Obj} {s r : Bytes} (hs : Sep s) (hr : NotStart SepChar r) :
    skipSC false (leftover o s r) = .ok r := by
  unfold leftover
  split
  · exact skipSC_nonsep hr
  · exact skipSC_sep hs hr

theorem follow_stop_closer {u x : Bytes} (c : Byte) (h : Stop u) (hc : isRegular c = false) :
    Stop (u ++ c :: x) :=
  notStart_append h (notStart_mk (by rw [regular_iff, hc]; simp))

def ParseP (cfg : Cfg) (x : Syn) (t : Bytes) : Prop :=
  match x with
  | .obj o => ∀ s r, Follow cfg.refs o s r → ∃ f, objectP cfg f (t ++ (s ++ r)) = .ok (o, leftover o s r)
  | .items os => ∀ x, ∃ f r0, skipSC false (t ++ 93 :: x) = .ok r0 ∧ arrLoop cfg f r0 = .ok (os, x)
  | .ents raw => ∀ x acc, ∃ f r0, skipSC false (t ++ 62 :: 62 :: x) = .ok r0 ∧
      dictLoop cfg f acc r0 = .ok (raw.foldl (fun d e => dictSet d e.1 e.2) acc, x)

theorem numeric_obj {cfg : Cfg} {n : Int} {t s r : Bytes} (hi : IntText n t) (hf : Follow cfg.refs (.int n) s r) :
    objectP cfg 1 (t ++ (s ++ r)) = .ok (.int n, s ++ r) := by
  have hst := hf.stop rfl
  have hnum := numeric_int hi (stop_digit hst) (stop_ne hst (b := 46) rfl)
  cases hi with
  | mk neg sg ds h1 h2 =>
    rw [List.append_assoc] at hnum ⊢
    obtain ⟨c, t', e, hc⟩ := signed_head h1 h2 (s ++ r)
    rw [e] at hnum ⊢
    have hos : objStart c = true := by
      rcases hc with h | h | h
      · exact digit_objStart c h
      · subst h; rfl
      · subst h; rfl
    rw [objectP_start hos]
    rcases hc with hc | hc | hc
    · rw [objBody_digit hc]
      by_cases hrefs : cfg.refs = true
      · rw [if_pos hrefs, ← e]
        -- the text starts with a digit, so there is no sign
        rcases h1 with ⟨rfl, h | h⟩ | ⟨rfl, h⟩
        · subst h
          simpa using numericOrRef_int h2 hf.sep hf.rest hst (hf.look hrefs ⟨_, rfl⟩)
        · subst h; cases e; cases hc
        · subst h; cases e; cases hc
      · rw [if_neg hrefs]; exact hnum
    · rw [objBody_sign (Or.inl hc)]; exact hnum
    · rw [objBody_sign (Or.inr (Or.inl hc))]; exact hnum

theorem indirectRef_real {x : Bytes} {c e : Int} {r : Bytes} (h : numeric x = .ok (.real c e, r)) :
    numericOrRef x = .ok (.real c e, r) := by
  unfold numericOrRef indirectRef nonNegInt
  rw [h]

theorem real_obj {cfg : Cfg} {c e : Int} {t s r : Bytes} (hr : RealText c e t) (hc : -(10 ^ 28 : Int) < c)
    (hf : Follow cfg.refs (.real c e) s r) : objectP cfg 1 (t ++ (s ++ r)) = .ok (.real c e, s ++ r) := by
  have hst := hf.stop rfl
  have hnum := numeric_real hr hc (stop_digit hst)
  obtain ⟨b, t', rfl, hb⟩ := den_head (refs := cfg.refs) (Den.real c e t hr hc)
  rw [List.cons_append] at hnum ⊢
  rw [objectP_start hb]
  -- a real starts with a digit, a sign or a point
  have hd : isDigit b = true ∨ b = 43 ∨ b = 45 ∨ b = 46 := by
    cases hr' : isDigit b with
    | true => exact Or.inl rfl
    | false =>
      right
      unfold numeric at hnum
      by_cases h43 : b = 43
      · exact Or.inl h43
      · by_cases h45 : b = 45
        · exact Or.inr (Or.inl h45)
        · by_cases h46 : b = 46
          · exact Or.inr (Or.inr h46)
          · exfalso
            have hs : readSign (b :: (t' ++ (s ++ r))) = (false, b :: (t' ++ (s ++ r))) := by
              have := readSign_text (neg := false) (sg := []) (x := b :: (t' ++ (s ++ r))) (Or.inl ⟨rfl, Or.inl rfl⟩)
                (notStart_mk (by rintro (h | h); exact h43 h; exact h45 h))
              simpa using this
            have hsp : spanDigits (b :: (t' ++ (s ++ r))) = ([], b :: (t' ++ (s ++ r))) := by
              simp [spanDigits, hr']
            rw [hs] at hnum
            simp only at hnum
            rw [hsp] at hnum
            simp only at hnum
            split at hnum
            · rename_i h; cases h; exact h46 rfl
            · simp at hnum
  rcases hd with hd | hd
  · rw [objBody_digit hd]
    split
    · exact indirectRef_real hnum
    · exact hnum
  · rw [objBody_sign hd]; exact hnum

theorem den_parse (cfg : Cfg) {x : Syn} {t : Bytes} (h : Den cfg.refs x t) : ParseP cfg x t := by
  generalize hrefs : cfg.refs = refs at h
  induction h with
  | null =>
    intro s r hf
    exact ⟨1, by
      have : (b!"null" : Bytes) ++ (s ++ r) = 110 :: (b!"ull" ++ (s ++ r)) := rfl
      rw [this, objectP_start rfl]; exact objBody_null _ _ _ _ _ (hf.stop rfl)⟩
  | true =>
    intro s r hf
    exact ⟨1, by
      have : (b!"true" : Bytes) ++ (s ++ r) = 116 :: (b!"rue" ++ (s ++ r)) := rfl
      rw [this, objectP_start rfl]; exact objBody_true _ _ _ _ _ (hf.stop rfl)⟩
  | false =>
    intro s r hf
    exact ⟨1, by
      have : (b!"false" : Bytes) ++ (s ++ r) = 102 :: (b!"alse" ++ (s ++ r)) := rfl
      rw [this, objectP_start rfl]; exact objBody_false _ _ _ _ _ (hf.stop rfl)⟩
  | int n t hi => intro s r hf; exact ⟨1, numeric_obj hi hf⟩
  | real c e t hr hc => intro s r hf; exact ⟨1, real_obj hr hc hf⟩
  | name n t hn =>
    intro s r hf
    refine ⟨1, ?_⟩
    rw [List.cons_append, objectP_start rfl, objBody_name]
    unfold nameObj
    rw [nameP_text hn (hf.stop rfl)]; rfl
  | str v t hs =>
    intro s r _
    refine ⟨1, ?_⟩
    have : 40 :: (t ++ [41]) ++ (s ++ r) = 40 :: (t ++ 41 :: (s ++ r)) := by simp
    rw [this, objectP_start rfl, objBody_str, stringP_text hs]; rfl
  | hex d t hd =>
    intro s r _
    refine ⟨1, ?_⟩
    have : 60 :: (t ++ [62]) ++ (s ++ r) = 60 :: (t ++ 62 :: (s ++ r)) := by simp
    rw [this, objectP_start rfl, objBody_lt]
    have hh := hexstring_text (x := s ++ r) hd
    have : ∃ c1 x, t ++ 62 :: (s ++ r) = c1 :: x ∧ c1 ≠ 60 ∧ (isHex c1 || isWs c1 || c1 == 62) = true := by
      cases hd with
      | nil => exact ⟨62, _, rfl, by decide, rfl⟩
      | ws c d t hc _ =>
        refine ⟨c, _, rfl, ?_, by simp [(ws_iff c).mp hc]⟩
        intro h; subst h
        have := (ws_iff 60).mp hc
        cases this
      | digit v u c d t hu hc _ =>
        obtain ⟨_, h2, _, _⟩ := hexUp_val hu hc
        refine ⟨c, _, rfl, ?_, by simp [h2]⟩
        intro h; subst h; cases h2
    obtain ⟨c1, x, e, h1, h2⟩ := this
    rw [e] at hh ⊢
    unfold dictOrHex
    simp only [if_neg h1, h2, if_true]
    rw [hh]; rfl
  | ref ds gs s1 s2 hr h1 h2 h3 n3 h4 n4 =>
    intro s r hf
    refine ⟨1, ?_⟩
    have e : ds ++ (s1 ++ (gs ++ (s2 ++ [82]))) ++ (s ++ r) = ds ++ (s1 ++ (gs ++ (s2 ++ 82 :: (s ++ r)))) := by simp
    have hh := numericOrRef_ref (x := s ++ r) h1 h2 h3 n3 h4 n4
    rw [e]
    obtain ⟨c, t, rfl, hc⟩ := digits_head h1
    rw [List.cons_append] at hh ⊢
    rw [objectP_start (digit_objStart c hc), objBody_digit hc, if_pos (by rw [hrefs]; exact hr), hh]; rfl
  | arr os u hu ih =>
    intro s r _
    obtain ⟨f, r0, h1, h2⟩ := ih (s ++ r)
    refine ⟨f + 1, ?_⟩
    have : 91 :: (u ++ [93]) ++ (s ++ r) = 91 :: (u ++ 93 :: (s ++ r)) := by simp
    rw [this, objectP_start rfl, objBody_arr]
    unfold arrayP
    rw [h1]
    simp only
    rw [h2]; rfl
  | dict raw u hu ih =>
    intro s r hf
    obtain ⟨f, r0, h1, h2⟩ := ih (s ++ r) []
    refine ⟨f + 1, ?_⟩
    have : 60 :: 60 :: (u ++ [62, 62]) ++ (s ++ r) = 60 :: 60 :: (u ++ 62 :: 62 :: (s ++ r)) := by simp
    rw [this, objectP_start rfl, objBody_lt]
    unfold dictOrHex
    simp only [if_true]
    rw [h1]
    simp only
    rw [h2]
    simp only
    rw [skipSC_sep hf.sep hf.rest]
    simp only
    have hns := hf.noStream ⟨_, rfl⟩
    have : r.head? ≠ some 115 := by
      intro h
      exact hns _ _ (head?_cons h) rfl
    rw [if_neg this, foldl_dictSet]; rfl
  | itemsNil s hs =>
    intro x
    refine ⟨1, 93 :: x, skipSC_sep hs ?_, ?_⟩
    · exact (goodRest_of_char (t := x) (c := 93) rfl (by decide) (by decide) (by decide) rfl (by decide) (by decide)).sep
    · rw [arrLoop]; simp
  | entsNil s hs =>
    intro x acc
    refine ⟨1, 62 :: 62 :: x, skipSC_sep hs ?_, ?_⟩
    · exact (goodRest_of_char (c := 62) rfl (by decide) (by decide) (by decide) rfl (by decide) (by decide)).sep
    · rw [dictLoop]; simp
  | itemsCons s o t os u hs ho hst hu iho ihu =>
    intro x
    obtain ⟨f2, r0, h1, h2⟩ := ihu x
    obtain ⟨s', u', hu', hs', hg⟩ := den_split hu
    have hgx := hg x
    have e : u ++ 93 :: x = s' ++ (u' ++ 93 :: x) := by rw [hu', List.append_assoc]
    have hfol : Follow cfg.refs o s' (u' ++ 93 :: x) :=
      { sep := hs', rest := hgx.sep,
        stop := fun hn => by rw [← e]; exact follow_stop_closer 93 (hst hn) rfl,
        look := fun _ _ => hgx.look, noStream := fun _ => hgx.noS }
    obtain ⟨f1, h3⟩ := iho s' (u' ++ 93 :: x) hfol
    have hr0 : r0 = u' ++ 93 :: x := by
      rw [e, skipSC_sep hs' hgx.sep] at h1
      cases h1; rfl
    obtain ⟨c, t', ht, hc⟩ := den_head ho
    have e2 : s ++ (t ++ u) ++ 93 :: x = s ++ (t ++ (s' ++ (u' ++ 93 :: x))) := by
      rw [List.append_assoc, List.append_assoc, e]
    refine ⟨max f1 f2 + 1, t ++ (s' ++ (u' ++ 93 :: x)), ?_, ?_⟩
    · rw [e2]
      exact skipSC_sep hs (by rw [ht, List.cons_append]; exact objStart_notSep hc)
    · rw [arrLoop]
      have hh : (t ++ (s' ++ (u' ++ 93 :: x))).head? ≠ some 93 := by
        rw [ht]; simp [(objStart_facts c hc).2.2.2.1]
      rw [if_neg hh, objectP_okmore (Nat.le_max_left f1 f2) h3]
      simp only
      rw [leftover_skip hs' hgx.sep]
      simp only
      rw [← hr0, arrLoop_more (Nat.le_max_right f1 f2) h2]
  | entsCons s k kt s1 v t es u hs hk hs1 hstk hv hst hu ihv ihu =>
    intro x acc
    obtain ⟨f2, r0, h1, h2⟩ := ihu x (dictSet acc k v)
    obtain ⟨s', u', hu', hs', hg⟩ := den_split hu
    have hgx := hg x
    have e : u ++ 62 :: 62 :: x = s' ++ (u' ++ 62 :: 62 :: x) := by rw [hu', List.append_assoc]
    have hfol : Follow cfg.refs v s' (u' ++ 62 :: 62 :: x) :=
      { sep := hs', rest := hgx.sep,
        stop := fun hn => by rw [← e]; exact follow_stop_closer 62 (hst hn) rfl,
        look := fun _ _ => hgx.look, noStream := fun _ => hgx.noS }
    obtain ⟨f1, h3⟩ := ihv s' (u' ++ 62 :: 62 :: x) hfol
    have hr0 : r0 = u' ++ 62 :: 62 :: x := by
      rw [e, skipSC_sep hs' hgx.sep] at h1
      cases h1; rfl
    obtain ⟨c, t', ht, hc⟩ := den_head hv
    have e2 : s ++ 47 :: (kt ++ (s1 ++ (t ++ u))) ++ 62 :: 62 :: x =
        s ++ 47 :: (kt ++ (s1 ++ (t ++ (s' ++ (u' ++ 62 :: 62 :: x))))) := by
      rw [← e]; simp
    refine ⟨max f1 f2 + 1, 47 :: (kt ++ (s1 ++ (t ++ (s' ++ (u' ++ 62 :: 62 :: x))))), ?_, ?_⟩
    · rw [e2]
      exact skipSC_sep hs (goodRest_of_char rfl (by decide) (by decide) (by decide) rfl (by decide) (by decide)).sep
    · rw [dictLoop]
      rw [if_neg (by simp)]
      have hstop2 : Stop (s1 ++ (t ++ (s' ++ (u' ++ 62 :: 62 :: x)))) := by
        rw [← List.append_assoc]
        intro c0 t0 e0
        have : ∃ c1 t1, s1 ++ t = c1 :: t1 := by
          rw [ht]
          cases s1 with
          | nil => exact ⟨_, _, rfl⟩
          | cons a b => exact ⟨_, _, rfl⟩
        obtain ⟨c1, t1, e1⟩ := this
        rw [e1] at e0
        cases e0
        exact hstk c0 t1 e1
      rw [nameP_text hk hstop2]
      simp only
      rw [skipSC_sep hs1 (by rw [ht, List.cons_append]; exact objStart_notSep hc)]
      simp only
      rw [objectP_okmore (Nat.le_max_left f1 f2) h3]
      simp only
      rw [leftover_skip hs' hgx.sep]
      simp only
      rw [← hr0, dictLoop_more (Nat.le_max_right f1 f2) h2]
      simp

/-- Parsing a text of `o`, with separators before it. -/
theorem parse_den (cfg : Cfg) (hc : cfg.NoDiv) {o : Obj} {t s0 s r : Bytes} (h : Den cfg.refs (.obj o) t)
    (h0 : Sep s0) (hf : Follow cfg.refs o s r) :
    parseObject cfg (s0 ++ (t ++ (s ++ r))) = .ok (o, leftover o s r) := by
  obtain ⟨f, hp⟩ := den_parse cfg h s r hf
  obtain ⟨c, t', ht, hcs⟩ := den_head h
  apply parseObject_of_fuel hc f
  cases f with
  | zero => rw [objectP] at hp; cases hp
  | succ f =>
    rw [objectP] at hp ⊢
    have hns : NotStart SepChar (t ++ (s ++ r)) := by
      rw [ht, List.cons_append]; exact objStart_notSep hcs
    rw [skipSC_sep h0 hns]
    rw [skipSC_nonsep hns] at hp
    exact hp

end PdfReader
