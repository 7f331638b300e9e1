/-
  What is printed while rendering is a content.
-/
import Verif.Spec.Told
import Verif.Lemmas.Shows
import Verif.Lemmas.TextFile

namespace PdfReader

open Spec

/-! ### Encoding -/

theorem encoded_append (enc : Nat → Bytes) (a b : Text) : encoded enc (a ++ b) = encoded enc a ++ encoded enc b := List.flatMap_append

theorem encoded_cons {enc : Nat → Bytes} (ha : AsciiBased enc) {c : Nat} (hc : c < 128) (t : Text) : encoded enc (c :: t) = UInt8.ofNat c :: encoded enc t := by
  unfold encoded
  rw [List.flatMap_cons, ha.1 c hc]
  rfl

theorem encoded_asc {enc : Nat → Bytes} (ha : AsciiBased enc) : ∀ s : Bytes, (∀ c ∈ s, c.toNat < 128) → encoded enc (asc s) = s
  | [], _ => rfl
  | c :: s, h => by
    show encoded enc (c.toNat :: asc s) = _
    rw [encoded_cons ha (h c (by simp)), encoded_asc ha s fun c hc => h c (by simp [hc])]
    simp

theorem encoded_of {enc : Nat → Bytes} (ha : AsciiBased enc) (s : Bytes) (h : (s.all fun c => decide (c.toNat < 128)) = true) : encoded enc (asc s) = s :=
  encoded_asc ha s fun c hc => of_decide_eq_true (List.all_eq_true.mp h c hc)

theorem digit_text (n : Nat) (h : n < 10) : (Nat.digitChar n).toNat = (UInt8.ofNat (48 + n)).toNat := by
  have : ∀ n : Fin 10, (Nat.digitChar n).toNat = (UInt8.ofNat (48 + n)).toNat := by decide
  exact this ⟨n, h⟩

theorem natText_upTo : ∀ (w n : Nat), n < w → natText n = asc (showUpTo w n)
  | 0, _, h => absurd h (Nat.not_lt_zero _)
  | w + 1, n, h => by
    unfold natText showUpTo
    by_cases hn : n < 10
    · rw [if_pos hn, Nat.toDigits_of_lt_base hn]
      exact congrArg (fun c => [c]) (digit_text n hn)
    · have ih := natText_upTo w (n / 10) (by omega)
      unfold natText at ih
      rw [if_neg hn, Nat.toDigits_of_base_le (by decide) (by omega), List.map_append, ih, List.map_singleton, digit_text _ (by omega)]
      unfold asc
      rw [List.map_append, List.map_singleton]

theorem natText_show (n : Nat) : natText n = asc (showNat n) := natText_upTo (n + 1) n (by omega)

theorem digit_ascii : ∀ c : Byte, Digit c → c.toNat < 128 := by
  have : ∀ c : Byte, isDigit c = true → c.toNat < 128 := forall_u8 _ (by decide +kernel)
  exact fun c hc => this c ((digit_iff c).mp hc)

theorem intText_show (n : Int) : intText n = asc (showInt n) := by
  unfold intText showInt
  split
  · rw [natText_show]; rfl
  · exact natText_show _

theorem showInt_ascii (n : Int) : ∀ c ∈ showInt n, c.toNat < 128 := by
  intro c hc
  unfold showInt at hc
  split at hc
  · rcases List.mem_cons.mp hc with rfl | hc
    · decide
    · exact digit_ascii c ((showNat_digits _).2 c hc)
  · exact digit_ascii c ((showNat_digits _).2 c hc)

theorem decVal_lt : ∀ ds : Bytes, (∀ c ∈ ds, Digit c) → Spec.decVal ds < 10 ^ ds.length
  | [], _ => by decide
  | c :: ds, h => by
    have ih := decVal_lt ds fun c hc => h c (by simp [hc])
    have hc : c.toNat - 48 < 10 := by
      have : ∀ c : Byte, isDigit c = true → c.toNat - 48 < 10 := forall_u8 _ (by decide +kernel)
      exact this c ((digit_iff c).mp (h c (by simp)))
    unfold Spec.decVal
    rw [List.length_cons, Nat.pow_succ]
    have := Nat.mul_le_mul_right (10 ^ ds.length) (show c.toNat - 48 ≤ 9 by omega)
    omega

/-- Decimals as they are printed are texts of reals. -/
theorem decimal_text (c e : Int) (he : e < 0) (hs : e.natAbs ≤ 6 ∨ 10 ^ (e.natAbs - 6) ≤ c.natAbs) :
    ∃ t : Bytes, decimalStr c e = asc t ∧ RealText c e t ∧ ∀ x ∈ t, x.toNat < 128 := by
  have hd := showNat_digits c.natAbs
  have hv := showNat_val c.natAbs
  generalize hds : showNat c.natAbs = ds at hd hv
  have hpos : 0 < ds.length := List.length_pos_iff.mpr hd.1
  have hleft : e + (ds.length : Int) > -6 := by
    rcases hs with hs | hs
    · omega
    · have h1 := decVal_lt ds hd.2
      rw [hv] at h1
      have h2 := Nat.lt_of_le_of_lt hs h1
      have h3 := (Nat.pow_lt_pow_iff_right (by decide : 1 < 10)).mp h2
      omega
  have hlen : (asc ds).length = ds.length := List.length_map _
  have hbody : ∃ ip fp : Bytes, (∀ x ∈ ip, Digit x) ∧ Digits fp ∧ fp.length = e.natAbs ∧ Spec.decVal (ip ++ fp) = c.natAbs ∧
      decimalStr c e = (if c < 0 then [45] else []) ++ asc (ip ++ 46 :: fp) := by
    have hplace : (if e ≤ 0 ∧ e + (ds.length : Int) > -6 then e + (ds.length : Int) else 1) = e + (ds.length : Int) := if_pos ⟨by omega, hleft⟩
    by_cases hp : e + (ds.length : Int) ≤ 0
    · refine ⟨[48], List.replicate (e + (ds.length : Int)).natAbs 48 ++ ds, ?_, ⟨?_, ?_⟩, ?_, ?_, ?_⟩
      · intro x hx
        rw [List.mem_singleton] at hx
        rw [hx, digit_iff]; rfl
      · intro h
        exact hd.1 (List.append_eq_nil_iff.mp h).2
      · intro x hx
        rw [List.mem_append] at hx
        rcases hx with hx | hx
        · rw [List.mem_replicate] at hx; rw [hx.2, digit_iff]; rfl
        · exact hd.2 x hx
      · rw [List.length_append, List.length_replicate]; omega
      · show Spec.decVal (48 :: (List.replicate (e + (ds.length : Int)).natAbs 48 ++ ds)) = _
        unfold Spec.decVal
        rw [decVal_zeros, hv]
        simp
      · unfold decimalStr
        rw [natText_show, hds]
        dsimp only
        rw [hlen, hplace, if_pos hp, if_pos rfl, List.append_nil]
        unfold asc
        rw [List.map_append, List.map_cons (l := List.replicate _ _ ++ ds), List.map_append, List.map_replicate]
        rfl
    · refine ⟨ds.take (e + (ds.length : Int)).toNat, ds.drop (e + (ds.length : Int)).toNat, ?_, ⟨?_, ?_⟩, ?_, ?_, ?_⟩
      · exact fun x hx => hd.2 x (List.mem_of_mem_take hx)
      · intro h
        have := congrArg List.length h
        rw [List.length_drop, List.length_nil] at this
        omega
      · exact fun x hx => hd.2 x (List.mem_of_mem_drop hx)
      · rw [List.length_drop]; omega
      · rw [List.take_append_drop, hv]
      · unfold decimalStr
        rw [natText_show, hds]
        dsimp only
        rw [hlen, hplace, if_neg hp, if_neg (show ¬ ((ds.length : Int) ≤ e + (ds.length : Int)) by omega), if_pos rfl, List.append_nil]
        unfold asc
        rw [List.map_append, List.map_cons, List.map_take, List.map_drop]
        rfl
  obtain ⟨ip, fp, h1, h2, h3, h4, h5⟩ := hbody
  have hasc : ∀ x ∈ ip ++ 46 :: fp, x.toNat < 128 := by
    intro x hx
    rw [List.mem_append, List.mem_cons] at hx
    rcases hx with hx | rfl | hx
    · exact digit_ascii x (h1 x hx)
    · decide
    · exact digit_ascii x (h2.2 x hx)
  by_cases hc : c < 0
  · refine ⟨45 :: (ip ++ 46 :: fp), ?_, ?_, ?_⟩
    · rw [h5, if_pos hc]; rfl
    · have := RealText.frac true [45] ip fp (Or.inr ⟨rfl, rfl⟩) h1 h2
      rw [h4, h3] at this
      simp only [if_true] at this
      rw [show (-1 * (c.natAbs : Int)) = c by omega, show (-(e.natAbs : Int)) = e by omega] at this
      exact this
    · intro x hx
      rcases List.mem_cons.mp hx with rfl | hx
      · decide
      · exact hasc x hx
  · refine ⟨ip ++ 46 :: fp, ?_, ?_, hasc⟩
    · rw [h5, if_neg hc]; rfl
    · have := RealText.frac false [] ip fp (Or.inl ⟨rfl, Or.inl rfl⟩) h1 h2
      rw [h4, h3] at this
      simp only [Bool.false_eq_true, if_false] at this
      rw [show (1 * (c.natAbs : Int)) = c by omega, show (-(e.natAbs : Int)) = e by omega] at this
      exact this

/-! ### Strings -/

theorem high_plain : ∀ (b : Byte), 128 ≤ b.toNat → b ≠ 40 ∧ b ≠ 41 ∧ b ≠ 92 ∧ b ≠ 13 := forall_u8 _ (by decide +kernel)

theorem high_text : ∀ (bs v t : Bytes), (∀ b ∈ bs, 128 ≤ b.toNat) → StrText v t → StrText (bs ++ v) (bs ++ t)
  | [], _, _, _, h => h
  | b :: bs, v, t, hb, h => by
    obtain ⟨h1, h2, h3, h4⟩ := high_plain b (hb b (by simp))
    exact .plain b _ _ h1 h2 h3 h4 (high_text bs v t (fun b hb' => hb b (by simp [hb'])) h)

theorem escaped_text {enc : Nat → Bytes} (ha : AsciiBased enc) : ∀ t : Text, StrText (encoded enc t) (encoded enc (escapeText t))
  | [] => .nil
  | c :: t => by
    have ih := escaped_text ha t
    unfold escapeText
    rw [encoded_append]
    by_cases hc : c < 128
    · rw [encoded_cons ha hc]
      have key : ∀ c : Fin 128, (∃ l ∈ namedEscapes, l.2 = UInt8.ofNat c ∧ l.1.toNat < 128 ∧
          (if c.val = 10 then asc b!"\\n" else if c.val = 13 then asc b!"\\r" else if c.val = 9 then asc b!"\\t" else if c.val = 8 then asc b!"\\b" else if c.val = 12 then asc b!"\\f"
            else if c.val = 40 then asc b!"\\(" else if c.val = 41 then asc b!"\\)" else if c.val = 92 then asc b!"\\\\" else [c.val]) = [92, l.1.toNat]) ∨
          ((if c.val = 10 then asc b!"\\n" else if c.val = 13 then asc b!"\\r" else if c.val = 9 then asc b!"\\t" else if c.val = 8 then asc b!"\\b" else if c.val = 12 then asc b!"\\f"
            else if c.val = 40 then asc b!"\\(" else if c.val = 41 then asc b!"\\)" else if c.val = 92 then asc b!"\\\\" else [c.val]) = [c.val] ∧
            UInt8.ofNat c ≠ 40 ∧ UInt8.ofNat c ≠ 41 ∧ UInt8.ofNat c ≠ 92 ∧ UInt8.ofNat c ≠ 13) := by decide +kernel
      rcases key ⟨c, hc⟩ with ⟨l, hl, h1, h2, h3⟩ | ⟨h1, h2⟩
      · dsimp only at h1 h3
        rw [h3, encoded_cons ha (by decide), encoded_cons ha h2, ← h1]
        rw [show UInt8.ofNat l.1.toNat = l.1 by simp]
        exact .named _ _ _ _ hl ih
      · dsimp only at h1 h2
        rw [h1, encoded_cons ha hc]
        exact .plain _ _ _ h2.1 h2.2.1 h2.2.2.1 h2.2.2.2 ih
    · rw [if_neg (by omega), if_neg (by omega), if_neg (by omega), if_neg (by omega), if_neg (by omega), if_neg (by omega), if_neg (by omega), if_neg (by omega)]
      have e1 : encoded enc (c :: t) = enc c ++ encoded enc t := by unfold encoded; rw [List.flatMap_cons]
      have e2 : encoded enc [c] = enc c := by unfold encoded; rw [List.flatMap_cons, List.flatMap_nil, List.append_nil]
      rw [e1, e2]
      exact high_text _ _ _ (ha.2 c (by omega)) ih

theorem quoted_den {enc : Nat → Bytes} (ha : AsciiBased enc) (t : Text) : Den false (.obj (.str (encoded enc t))) (encoded enc (quoted t)) := by
  unfold quoted
  rw [encoded_cons ha (by decide), encoded_append, encoded_cons ha (by decide)]
  exact .str _ _ (escaped_text ha t)

/-! ### Operands -/

theorem plainName_text : ∀ n : Bytes, PlainName n → NameText n n
  | [], _ => .nil
  | c :: n, h => .plain c _ _ (h c (by simp)).1 (h c (by simp)).2.1 (plainName_text n fun c hc => h c (by simp [hc]))

theorem items_space {os : List Obj} {u : Bytes} (h : Den false (.items os) u) : Den false (.items os) (32 :: u) := by
  cases h with
  | itemsNil s hs => exact .itemsNil _ (.ws 32 _ (by simp [WS]) hs)
  | itemsCons s o t os u hs h1 h2 h3 => exact .itemsCons (32 :: s) o t os u (.ws 32 _ (by simp [WS]) hs) h1 h2 h3

theorem ents_space {es : List (Bytes × Obj)} {u : Bytes} (h : Den false (.ents es) u) : Den false (.ents es) (32 :: u) := by
  cases h with
  | entsNil s hs => exact .entsNil _ (.ws 32 _ (by simp [WS]) hs)
  | entsCons s k kt s1 v t es u hs h1 h2 h3 h4 h5 h6 => exact .entsCons (32 :: s) k kt s1 v t es u (.ws 32 _ (by simp [WS]) hs) h1 h2 h3 h4 h5 h6

/-- Texts of objects, one for each. -/
inductive Printed (enc : Nat → Bytes) : List Obj → List Text → Prop
  | nil : Printed enc [] []
  | cons (o : Obj) (u : Text) (os : List Obj) (us : List Text) : Den false (.obj o) (encoded enc u) → Printed enc os us → Printed enc (o :: os) (u :: us)

theorem printed_items {enc : Nat → Bytes} (ha : AsciiBased enc) {os : List Obj} {us : List Text} (h : Printed enc os us) : Den false (.items os) (encoded enc (joinText [32] us)) := by
  induction h with
  | nil => exact .itemsNil [] .nil
  | cons o u os us hd hp ih =>
    cases hp with
    | nil =>
      have := Den.itemsCons [] o _ [] [] .nil hd (fun _ => notStart_nil) (.itemsNil [] .nil)
      rwa [List.append_nil, List.nil_append] at this
    | cons o' u' os' us' hd' hp' =>
      have := Den.itemsCons [] o _ (o' :: os') _ .nil hd (fun _ => stop_space) (items_space ih)
      rw [List.nil_append] at this
      show Den false _ (encoded enc (u ++ [32] ++ joinText [32] (u' :: us')))
      rw [encoded_append, encoded_append, encoded_cons ha (by decide), List.append_assoc]
      exact this

/-- Texts of entries. -/
inductive PrintedEnts (enc : Nat → Bytes) : List (Bytes × Obj) → List Text → Prop
  | nil : PrintedEnts enc [] []
  | cons (k : Bytes) (v : Obj) (u : Text) (es : List (Bytes × Obj)) (us : List Text) : PlainName k → Den false (.obj v) (encoded enc u) → PrintedEnts enc es us →
      PrintedEnts enc ((k, v) :: es) ((47 :: asc k ++ 32 :: u) :: us)

theorem encoded_entry {enc : Nat → Bytes} (ha : AsciiBased enc) {k : Bytes} (hk : PlainName k) (u : Text) :
    encoded enc (47 :: asc k ++ 32 :: u) = 47 :: (k ++ 32 :: encoded enc u) := by
  rw [encoded_append, encoded_cons ha (by decide), encoded_cons ha (by decide), encoded_asc ha k fun c hc => (hk c hc).2.2]
  rfl

theorem printed_ents {enc : Nat → Bytes} (ha : AsciiBased enc) {es : List (Bytes × Obj)} {us : List Text} (h : PrintedEnts enc es us) :
    Den false (.ents es) (encoded enc (joinText [32] us)) := by
  induction h with
  | nil => exact .entsNil [] .nil
  | cons k v u es us hk hd hp ih =>
    cases hp with
    | nil =>
      have := Den.entsCons [] k k [32] v _ [] [] .nil (plainName_text k hk) sep_blank stop_space hd (fun _ => notStart_nil) (.entsNil [] .nil)
      rw [List.append_nil, List.nil_append] at this
      show Den false _ (encoded enc (47 :: asc k ++ 32 :: u))
      rw [encoded_entry ha hk]
      exact this
    | cons k' v' u' es' us' hk' hd' hp' =>
      have := Den.entsCons [] k k [32] v _ ((k', v') :: es') _ .nil (plainName_text k hk) sep_blank stop_space hd (fun _ => stop_space) (ents_space ih)
      rw [List.nil_append] at this
      show Den false _ (encoded enc ((47 :: asc k ++ 32 :: u) ++ [32] ++ joinText [32] ((47 :: asc k' ++ 32 :: u') :: us')))
      rw [encoded_append, encoded_append, encoded_entry ha hk, encoded_cons ha (by decide), List.append_assoc, List.cons_append, List.append_assoc]
      exact this

/-- Operands which can be told are printed as texts of them. -/
theorem sayable_den {enc : Nat → Bytes} (ha : AsciiBased enc) {o : Obj} (h : Sayable o) : ∃ u, printObj o = .ok u ∧ Den false (.obj o) (encoded enc u) := by
  induction h with
  | null => exact ⟨_, rfl, by rw [encoded_of ha _ (by decide)]; exact .null⟩
  | bool b =>
    cases b
    · exact ⟨_, rfl, by rw [if_neg (by decide), encoded_of ha _ (by decide)]; exact .false⟩
    · exact ⟨_, rfl, by rw [if_pos rfl, encoded_of ha _ (by decide)]; exact .true⟩
  | int n => exact ⟨_, rfl, by rw [intText_show, encoded_asc ha _ (showInt_ascii n)]; exact .int _ _ (showInt_text n)⟩
  | real c e h1 h2 h3 =>
    obtain ⟨t, e1, e2, e3⟩ := decimal_text c e h1 h3
    exact ⟨_, rfl, by rw [e1, encoded_asc ha _ e3]; exact .real _ _ _ e2 h2⟩
  | name n hn =>
    refine ⟨_, rfl, ?_⟩
    rw [encoded_cons ha (by decide), encoded_asc ha _ fun c hc => (hn c hc).2.2]
    exact .name _ _ (plainName_text n hn)
  | arr xs _ ih =>
    have key : ∀ xs : List Obj, (∀ x ∈ xs, ∃ u, printObj x = .ok u ∧ Den false (.obj x) (encoded enc u)) → ∃ us, printObjs xs = .ok us ∧ Printed enc xs us := by
      intro xs
      induction xs with
      | nil => exact fun _ => ⟨[], rfl, .nil⟩
      | cons x xs ih =>
        intro h
        obtain ⟨u, e1, e2⟩ := h x (by simp)
        obtain ⟨us, e3, e4⟩ := ih fun y hy => h y (by simp [hy])
        exact ⟨u :: us, by unfold printObjs; rw [e1, e3]; rfl, .cons _ _ _ _ e2 e4⟩
    obtain ⟨us, e1, e2⟩ := key xs ih
    refine ⟨_, by unfold printObj; rw [e1]; rfl, ?_⟩
    show Den false _ (encoded enc (91 :: joinText [32] us ++ [93]))
    rw [encoded_append, encoded_cons ha (by decide), encoded_cons ha (by decide)]
    exact .arr _ _ (printed_items ha e2)
  | dict es hd hk _ ih =>
    have key : ∀ es : List (Bytes × Obj), (∀ e ∈ es, PlainName e.1) → (∀ e ∈ es, ∃ u, printObj e.2 = .ok u ∧ Den false (.obj e.2) (encoded enc u)) →
        ∃ us, printEnts es = .ok us ∧ PrintedEnts enc es us := by
      intro es
      induction es with
      | nil => exact fun _ _ => ⟨[], rfl, .nil⟩
      | cons x xs ih =>
        obtain ⟨k, v⟩ := x
        intro hk h
        obtain ⟨u, e1, e2⟩ := h (k, v) (by simp)
        obtain ⟨us, e3, e4⟩ := ih (fun y hy => hk y (by simp [hy])) fun y hy => h y (by simp [hy])
        exact ⟨_ :: us, by unfold printEnts; rw [show printObj v = .ok u from e1, e3]; rfl, .cons _ _ _ _ _ (hk (k, v) (by simp)) e2 e4⟩
    obtain ⟨us, e1, e2⟩ := key es hk ih
    refine ⟨_, by unfold printObj; rw [e1]; rfl, ?_⟩
    show Den false _ (encoded enc (60 :: 60 :: joinText [32] us ++ [62, 62]))
    rw [encoded_append, encoded_cons ha (by decide), encoded_cons ha (by decide), encoded_cons ha (by decide), encoded_cons ha (by decide)]
    have := Den.dict es _ (printed_ents ha e2)
    rw [dictOf_self hd] at this
    exact this

/-! ### Commands -/

theorem operator_text : ∀ name ∈ operators, OpText name ∧ ∀ c ∈ name, c.toNat < 128 := by
  have : ∀ t ∈ operators, t ≠ [] ∧ (∀ c ∈ t, isRegular c = true) ∧ (t.head?.all (fun c => !(isDigit c) && c != 43 && c != 45 && c != 46)) = true ∧
    t ∉ ([b!"null", b!"true", b!"false", b!"BI"] : List Bytes) ∧ ∀ c ∈ t, c.toNat < 128 := by decide +kernel
  intro t h
  obtain ⟨h1, h2, h3, h4, h5⟩ := this t h
  refine ⟨⟨h1, fun c hc => (regular_iff c).mpr (h2 c hc), ?_, h4⟩, h5⟩
  rintro c t' rfl
  simp only [List.head?_cons, Option.all_some, Bool.and_eq_true, bne_iff_ne, Bool.not_eq_true'] at h3
  obtain ⟨⟨⟨a1, a2⟩, a3⟩, a4⟩ := h3
  rintro (hd | hd | hd | hd)
  · rw [digit_iff, a1] at hd; cases hd
  · exact a2 hd
  · exact a3 hd
  · exact a4 hd

theorem start_plain : ∀ c : Byte, objStart c = true → isWs c = false ∧ c ≠ 37 ∧ c ≠ 115 := forall_u8 _ (by decide +kernel)

theorem sepChar_not {c : Byte} (h : objStart c = true) : ¬ SepChar c := by
  obtain ⟨h1, h2, _⟩ := start_plain c h
  rintro (h | h)
  · rw [ws_iff, h1] at h; cases h
  · exact h2 h

theorem sep_snoc {s : Bytes} (h : Sep s) : Sep (s ++ [32]) := by
  induction h with
  | nil => exact sep_blank
  | ws c s hc _ ih => exact .ws c _ hc ih
  | comment b e s hb he _ ih =>
    rw [List.cons_append, List.append_assoc]
    exact .comment b e _ hb he ih

/-- A command as it is printed. -/
theorem command_text {enc : Nat → Bytes} (ha : AsciiBased enc) {name : Bytes} (ho : OpText name) {ds : List Content} {r : Bytes} (hr : ContentText [] ds r) (hst : Stop r) :
    ∀ (os : List Obj) (us : List Text), Printed enc os us → (∀ d, os.getLast? = some (.dict d) → name.head? ≠ some 115) → ∀ (ops : List Obj) (s : Bytes), Sep s →
      ContentText ops (.op name (ops ++ os) :: ds) (s ++ (encoded enc (joinText [32] us) ++ 32 :: (name ++ r))) := by
  have hname : ∀ P : Byte → Prop, (∀ c, P c → ¬ Regular c) → NotStart P (name ++ r) := by
    intro P hP
    obtain ⟨h1, h2, _⟩ := ho
    cases name with
    | nil => exact absurd rfl h1
    | cons c n =>
      intro c' t' e hc
      rw [List.cons_append] at e
      injection e with e1 e2
      subst e1
      exact hP c hc (h2 c (by simp))
  intro os us hp
  induction hp with
  | nil =>
    intro _ ops s hs
    have := ContentText.op ops ds (s ++ [32]) name r (sep_snoc hs) ho hst hr
    rw [List.append_assoc] at this
    rw [List.append_nil]
    exact this
  | cons o u os us hd hp ih =>
    intro hl ops s hs
    obtain ⟨c0, t0, e0, hc0⟩ := den_head hd
    cases hp with
    | nil =>
      have i := ContentText.op (ops ++ [o]) ds [32] name r sep_blank ho hst hr
      refine ContentText.operand ops _ s o _ [32] (name ++ r) hs hd sep_blank ?_ (fun _ => stop_space) ?_ i
      · refine hname _ fun c hc hreg => ?_
        rcases hc with hc | rfl
        · exact hreg.1 hc
        · exact hreg.2 (by simp [Delim])
      · rintro ⟨d, rfl⟩
        have := hl d rfl
        cases hn : name with
        | nil => exact absurd hn ho.1
        | cons c n =>
          rw [hn] at this
          intro c' t' e hc
          rw [List.cons_append] at e
          injection e with e1 e2
          subst e1
          subst hc
          exact this rfl
    | cons o' u' os' us' hd' hp' =>
      obtain ⟨c1, t1, e1, hc1⟩ := den_head hd'
      have i := ih (fun d hd => hl d (by rw [List.getLast?_cons_cons]; exact hd)) (ops ++ [o]) [32] sep_blank
      rw [List.append_assoc] at i
      have hstart : ∃ v, encoded enc (joinText [32] (u' :: us')) ++ 32 :: (name ++ r) = c1 :: v := by
        cases us' with
        | nil => exact ⟨_, by show encoded enc u' ++ _ = _; rw [e1]; rfl⟩
        | cons u2 us2 =>
          exact ⟨_, by show encoded enc (u' ++ [32] ++ joinText [32] (u2 :: us2)) ++ _ = _; rw [encoded_append, encoded_append, e1]; rfl⟩
      obtain ⟨v, hv⟩ := hstart
      have := ContentText.operand ops _ s o _ [32] (encoded enc (joinText [32] (u' :: us')) ++ 32 :: (name ++ r)) hs hd sep_blank
        (by rw [hv]; exact notStart_mk (sepChar_not hc1)) (fun _ => stop_space) (fun _ => by rw [hv]; exact notStart_mk (start_plain c1 hc1).2.2) i
      show ContentText ops _ (s ++ (encoded enc (u ++ [32] ++ joinText [32] (u' :: us')) ++ 32 :: (name ++ r)))
      rw [encoded_append, encoded_append, encoded_cons ha (by decide), List.append_assoc, List.append_assoc]
      exact this

/-! ### Handlers do not touch the text -/

/-- Computations which leave the text of the canvas alone, when they succeed. -/
def Quiet {α : Type} (m : DM Paint α) : Prop := ∀ p a p', m p = (.ok a, p') → p'.canvas.text = p.canvas.text

theorem quiet_pure {α : Type} (r : Res α) : Quiet (DM.pure r) := by
  intro p a p' h
  unfold DM.pure at h
  cases h
  rfl

theorem quiet_bind {α β : Type} {m : DM Paint α} {f : α → DM Paint β} (h1 : Quiet m) (h2 : ∀ a, Quiet (f a)) : Quiet (m.bind f) := by
  intro p b p' h
  obtain ⟨a, s1, e1, e2⟩ := DM.bind_ok h
  exact (h2 a _ _ _ e2).trans (h1 _ _ _ e1)

theorem quiet_ite {α : Type} {c : Prop} [Decidable c] {a b : DM Paint α} (h1 : Quiet a) (h2 : Quiet b) : Quiet (if c then a else b) := by
  split
  · exact h1
  · exact h2

theorem quiet_setField (k : Bytes) (v : Val) : Quiet (setField k v) := by
  intro p a p' h
  obtain ⟨g, gs, e, he⟩ := setField_ok k v p
  rw [he] at h
  cases h
  rfl

theorem quiet_save : Quiet saveState := by
  intro p a p' h
  obtain ⟨g, _, e⟩ := save_ok h
  rw [e]

theorem quiet_addString (t : Text) : Quiet (addString t) := by
  intro p a p' h; cases h; rfl

theorem quiet_decodeString (h : Host) (res : Resources) (o : Obj) : Quiet (decodeString h res o) := by
  intro p a p' e
  unfold decodeString at e
  dsimp only at e
  split at e
  · cases e
  · split at e
    · injection e with _ e; subst e; rfl
    · split at e
      · cases e
      · injection e with _ e; subst e; rfl

theorem quiet_keep (args : List Obj) {m : DM Paint Unit} (h : Quiet m) : Quiet (keep args m) := quiet_bind h fun _ => quiet_pure _

theorem quiet_showOne (h : Host) (res : Resources) (args : List Obj) : Quiet (showOne h res args) :=
  quiet_bind (quiet_pure _) fun o => quiet_bind (quiet_decodeString h res o) fun t => quiet_bind (quiet_addString t) fun _ => quiet_pure _

theorem quiet_showEach (h : Host) (res : Resources) : ∀ os, Quiet (showEach h res os)
  | [] => quiet_pure _
  | o :: os => by
    unfold showEach
    split
    · exact quiet_bind (quiet_decodeString h res _) fun t => quiet_bind (quiet_addString t) fun _ => quiet_bind (quiet_showEach h res os) fun _ => quiet_pure _
    · exact quiet_bind (quiet_decodeString h res _) fun t => quiet_bind (quiet_addString t) fun _ => quiet_bind (quiet_showEach h res os) fun _ => quiet_pure _
    · exact quiet_bind (quiet_showEach h res os) fun _ => quiet_pure _

theorem quiet_showMany (h : Host) (res : Resources) (args : List Obj) : Quiet (showMany h res args) := by
  refine quiet_bind (quiet_pure _) fun o => ?_
  split
  · exact quiet_bind (quiet_showEach h res _) fun _ => quiet_pure _
  all_goals exact quiet_pure _

theorem quiet_decodeProps (h : Host) (res : Resources) (args : List Obj) : Quiet (decodeProps h res args) := by
  unfold decodeProps
  split
  · split
    · exact quiet_bind (quiet_decodeString h res _) fun _ => quiet_pure _
    · exact quiet_pure _
  all_goals exact quiet_pure _

theorem quiet_applyGs (h : Host) (res : Resources) (args : List Obj) : Quiet (applyGs h res args) := by
  refine quiet_bind (quiet_pure _) fun o => quiet_bind (quiet_pure _) fun k => quiet_bind (quiet_pure _) fun v => ?_
  split
  · exact quiet_pure _
  · split
    · intro p a p' e
      dsimp only at e
      split at e
      · split at e
        · cases e
        · split at e
          · cases e
          · split at e
            · cases e
            · split at e
              · cases e; rfl
              · cases e; rfl
      · cases e
    · exact quiet_pure _

theorem quiet_onOperator (h : Host) (res : Resources) (onDo : List Obj → DM Paint Unit) (hdo : ∀ args, Quiet (onDo args)) (name : Bytes) (args : List Obj) :
    Quiet (onOperator h res onDo name args) := by
  have first : ∀ k, Quiet (keep args ((DM.pure (arg0 args)).bind fun o => setField k (.atom o))) := fun k =>
    quiet_keep args (quiet_bind (quiet_pure _) fun o => quiet_setField k _)
  unfold onOperator
  refine quiet_ite (quiet_keep args quiet_save) ?_
  refine quiet_ite (quiet_keep args (by intro p a p' e; cases e; rfl)) ?_
  refine quiet_ite (quiet_keep args (quiet_setField _ _)) ?_
  refine quiet_ite (first _) ?_
  refine quiet_ite (first _) ?_
  refine quiet_ite (first _) ?_
  refine quiet_ite (first _) ?_
  refine quiet_ite (quiet_keep args (quiet_setField _ _)) ?_
  refine quiet_ite (first _) ?_
  refine quiet_ite (first _) ?_
  refine quiet_ite (quiet_keep args (quiet_applyGs h res args)) ?_
  refine quiet_ite (quiet_keep args (by intro p a p' e; cases e; rfl)) ?_
  refine quiet_ite (quiet_keep args (by intro p a p' e; cases e; rfl)) ?_
  refine quiet_ite (quiet_keep args (quiet_setField _ _)) ?_
  refine quiet_ite (quiet_showOne h res args) ?_
  refine quiet_ite (quiet_showMany h res args) ?_
  refine quiet_ite (quiet_decodeProps h res args) ?_
  refine quiet_ite (quiet_keep args (hdo args)) ?_
  refine quiet_ite (quiet_keep args (by intro p a p' e; cases e; rfl)) ?_
  exact quiet_ite (quiet_pure _) (quiet_keep args (quiet_pure _))

theorem quiet_onDo (h : Host) (res : Resources) (args : List Obj) : Quiet (onDoPage h res args) := by
  refine quiet_bind (quiet_pure _) fun o => quiet_bind (quiet_pure _) fun k => quiet_bind (quiet_pure _) fun v => ?_
  split
  · intro p a p' e
    unfold paintXObject at e
    split at e
    · split at e
      · cases e; rfl
      · split at e
        · cases e; rfl
        · split at e
          · split at e
            · cases e
            · split at e
              · cases e
              · unfold renderForm at e
                split at e
                · cases e
                · cases e; rfl
          · cases e; rfl
    · cases e; rfl
  · exact quiet_pure _

/-! ### What is told -/

/-- The computation succeeds, leads from one stack of fonts to another and adds to the text of the canvas. -/
def SaysText (res : Resources) (fs fs' : List (Option Bytes)) (t : Text) (m : DM Paint Unit) : Prop :=
  ∀ p, PaintInv res fs p → ∃ p', m p = (.ok (), p') ∧ PaintInv res fs' p' ∧ p'.canvas.text = p.canvas.text ++ t

theorem says_bind {res : Resources} {fs fs1 fs2 : List (Option Bytes)} {t u : Text} {m n : DM Paint Unit} (h1 : SaysText res fs fs1 t m) (h2 : SaysText res fs1 fs2 u n) :
    SaysText res fs fs2 (t ++ u) (m.bind fun _ => n) := by
  intro p hp
  obtain ⟨p1, e1, i1, s1⟩ := h1 p hp
  obtain ⟨p2, e2, i2, s2⟩ := h2 p1 i1
  exact ⟨p2, by rw [DM.bind_eq e1, e2], i2, by rw [s2, s1, List.append_assoc]⟩

theorem says_notifyOp {h : Host} {res : Resources} {onDo : List Obj → DM Paint Unit} (hq : ∀ args, Quiet (onDo args)) {onNav : DM Paint Unit} {name : Bytes} {args : List Obj}
    {fs fs' : List (Option Bytes)} {us : List Text} {im : List Content} {shown : List Arg} {t : Text} (h1 : aliasOf name ≠ b!"Do") (h2 : aliasOf name ≠ b!"navigate")
    (h3 : aliasOf name ≠ b!"handler") (ho : Puts res fs fs' us im (onOperator h res onDo (aliasOf name) args) shown) (hp : printOp name shown = .ok t) :
    SaysText res fs fs' t (notifyOp h res onDo onNav name args) := by
  intro p hi
  obtain ⟨p1, e1, i1, _⟩ := ho p hi
  have ht := quiet_onOperator h res onDo hq _ _ _ _ _ e1
  refine ⟨{ p1 with canvas := { p1.canvas with text := p1.canvas.text ++ t } }, ?_, ⟨i1.fonts, i1.copies, i1.decoders⟩, by rw [← ht]⟩
  unfold notifyOp
  rw [if_neg h1, DM.bind_eq (show DM.pure (.ok ()) p = (.ok (), p) from rfl), DM.bind_eq e1, if_neg h1, if_neg h2, if_neg h3]
  rw [DM.bind_eq (show DM.pure (.ok ()) p1 = (.ok (), p1) from rfl), hp]
  rfl

theorem says_notifyDo {h : Host} {res : Resources} {onDo : List Obj → DM Paint Unit} (hq : ∀ args, Quiet (onDo args)) {onNav : DM Paint Unit} {args : List Obj} {f : Option Bytes}
    {fs : List (Option Bytes)} {t : Text} (ho : Leaves res (f :: f :: fs) (f :: fs) (onDo args)) (hp : printOp b!"Do" (args.map .obj) = .ok t) :
    SaysText res (f :: fs) (f :: fs) t (notifyOp h res onDo onNav b!"Do" args) := by
  intro p hi
  obtain ⟨p1, e1, i1, _⟩ := goes_save p hi
  obtain ⟨f', p2, e2, i2, _⟩ := ho p1 i1
  obtain ⟨p3, e3, i3, _⟩ := goes_restore p2 i2
  have t1 := quiet_save _ _ _ e1
  have t2 := hq _ _ _ _ e2
  have t3 : p3.canvas.text = p2.canvas.text := by cases e3; rfl
  refine ⟨{ p3 with canvas := { p3.canvas with text := p3.canvas.text ++ t } }, ?_, ⟨i3.fonts, i3.copies, i3.decoders⟩, by show p3.canvas.text ++ t = _; rw [t3, t2, t1]⟩
  unfold notifyOp
  have hd : aliasOf b!"Do" = b!"Do" := by decide
  have he : onOperator h res onDo b!"Do" args = keep args (onDo args) := rfl
  rw [hd, if_pos rfl, DM.bind_eq e1, he, DM.bind_eq (show keep args (onDo args) p1 = (.ok (args.map .obj), p2) by unfold keep; rw [DM.bind_eq e2]; rfl), if_pos rfl, DM.bind_eq e3, hp]
  rfl

/-- Operands which can be told. -/
theorem sayable_args {enc : Nat → Bytes} (ha : AsciiBased enc) : ∀ args : List Obj, (∀ o ∈ args, Sayable o) → ∃ us, resMap printArg (args.map .obj) = .ok us ∧ Printed enc args us
  | [], _ => ⟨[], rfl, .nil⟩
  | o :: os, h => by
    obtain ⟨u, e1, e2⟩ := sayable_den ha (h o (by simp))
    obtain ⟨us, e3, e4⟩ := sayable_args ha os fun o ho => h o (by simp [ho])
    refine ⟨u :: us, ?_, .cons _ _ _ _ e2 e4⟩
    rw [List.map_cons]
    unfold resMap
    rw [show printArg (.obj o) = .ok u from e1, e3]
    rfl

/-- Commands as they are printed are a text of the commands. -/
structure Tells (enc : Nat → Bytes) (ds : List Content) (u : Text) : Prop where
  text : ContentText [] ds (encoded enc u)
  stop : Stop (encoded enc u)

theorem tells_nil {enc : Nat → Bytes} : Tells enc [] [] := ⟨.done _ _ .nil, notStart_nil⟩

theorem tells_cons {enc : Nat → Bytes} (ha : AsciiBased enc) {name : Bytes} (ho : name ∈ operators) {os : List Obj} {us : List Text} (hp : Printed enc os us)
    (hl : ∀ d, os.getLast? = some (.dict d) → name.head? ≠ some 115) {ds : List Content} {u : Text} (ht : Tells enc ds u) :
    Tells enc (.op name os :: ds) ((10 :: joinText [32] us ++ 32 :: asc name) ++ u) := by
  obtain ⟨h1, h2⟩ := operator_text name ho
  have e : encoded enc ((10 :: joinText [32] us ++ 32 :: asc name) ++ u) = [10] ++ (encoded enc (joinText [32] us) ++ 32 :: (name ++ encoded enc u)) := by
    rw [encoded_append, encoded_append, encoded_cons ha (by decide), encoded_cons ha (by decide), encoded_asc ha _ h2]
    simp
  have := command_text ha h1 ht.text ht.stop os us hp hl [] [10] sep_lf
  rw [← e] at this
  exact ⟨this, by rw [e]; exact stop_lit rfl⟩

/-! ### The whole content -/

/-- The strings of an array. -/
def isShown : Obj → Bool
  | .str _ => true
  | .hex _ => true
  | _ => false

theorem texts_count {dec : Obj → Option Text} {xs : List Obj} {us : List Text} (h : TextsOf dec xs us) : us.length = (xs.filter isShown).length := by
  induction h with
  | nil => rfl
  | string o t os ts hs _ _ ih =>
    rcases hs with ⟨s, rfl⟩ | ⟨s, rfl⟩
    · show ts.length + 1 = (os.filter isShown).length + 1; rw [ih]
    · show ts.length + 1 = (os.filter isShown).length + 1; rw [ih]
  | other o os ts h1 h2 _ ih =>
    have : isShown o = false := by
      cases o with
      | str s => exact absurd rfl (h1 s)
      | hex s => exact absurd rfl (h2 s)
      | _ => rfl
    rw [List.filter_cons, this]
    exact ih

theorem sayable_other {o : Obj} (h : Sayable o) : isShown o = false := by cases h <;> rfl

theorem retold_count {enc : Nat → Bytes} {xs ys : List Obj} {us : List Text} (h : RetoldItems enc xs us ys) : us.length = (xs.filter isShown).length := by
  induction h with
  | nil => rfl
  | string o t xs ys ts hs _ ih =>
    rcases hs with ⟨s, rfl⟩ | ⟨s, rfl⟩
    · show ts.length + 1 = (xs.filter isShown).length + 1; rw [ih]
    · show ts.length + 1 = (xs.filter isShown).length + 1; rw [ih]
  | other o xs ys ts h1 _ ih =>
    rw [List.filter_cons, sayable_other h1]
    exact ih

/-- The array of TJ as it is printed. -/
theorem tells_each {enc : Nat → Bytes} (ha : AsciiBased enc) {h : Host} {res : Resources} (hn : Named res) {f : Option Bytes} {fs : List (Option Bytes)} {xs ys : List Obj} {us : List Text}
    (ht : TextsOf (decoding h.decode res f) xs us) (hr : RetoldItems enc xs us ys) :
    ∃ r ps, Puts res (f :: fs) (f :: fs) us [] (showEach h res xs) r ∧ resMap printPart r = .ok ps ∧ Printed enc ys ps := by
  induction ht generalizing ys with
  | nil => cases hr; exact ⟨[], [], puts_of_goes (goes_pure _), rfl, .nil⟩
  | string o t os ts hs hd _ ih =>
    cases hr with
    | string _ _ _ ys _ hs' hr =>
      obtain ⟨r, ps, i, j, k⟩ := ih hr
      refine ⟨.inl (quoted t) :: r, quoted t :: ps, ?_, by unfold resMap; rw [j]; rfl, .cons _ _ _ _ (quoted_den ha t) k⟩
      rcases hs with ⟨s, rfl⟩ | ⟨s, rfl⟩
      · exact puts_after (puts_decode hn hd) (puts_bind (puts_addString t) (puts_then i (goes_pure _)))
      · exact puts_after (puts_decode hn hd) (puts_bind (puts_addString t) (puts_then i (goes_pure _)))
    | other _ _ ys _ ho _ => rcases hs with ⟨s, rfl⟩ | ⟨s, rfl⟩ <;> cases ho
  | other o os ts h1 h2 _ ih =>
    cases hr with
    | string _ t _ ys _ hs' hr =>
      rcases hs' with ⟨s, rfl⟩ | ⟨s, rfl⟩
      · exact absurd rfl (h1 s)
      · exact absurd rfl (h2 s)
    | other _ _ ys _ ho hr =>
      obtain ⟨r, ps, i, j, k⟩ := ih hr
      obtain ⟨u, e1, e2⟩ := sayable_den ha ho
      refine ⟨.inr o :: r, u :: ps, ?_, by unfold resMap; rw [show printPart (.inr o) = .ok u from e1, j]; rfl, .cons _ _ _ _ e2 k⟩
      have : showEach h res (o :: os) = (showEach h res os).bind fun r => DM.pure (.ok (.inr o :: r)) := by
        cases o with
        | str s => exact absurd rfl (h1 s)
        | hex s => exact absurd rfl (h2 s)
        | _ => rfl
      rw [this]
      exact puts_then i (goes_pure _)

theorem sayable_noText {es : List (Bytes × Obj)} (h : Sayable (.dict es)) (k s : Bytes) : dictGet es k ≠ some (.str s) := by
  cases h with
  | dict _ _ _ h =>
    intro hg
    have : ∀ es : List (Bytes × Obj), dictGet es k = some (.str s) → (k, Obj.str s) ∈ es := by
      intro es
      induction es with
      | nil => intro h; cases h
      | cons e es ih =>
        obtain ⟨k', v⟩ := e
        intro h
        unfold dictGet at h
        split at h
        · rename_i hk
          cases h
          rw [hk]
          simp
        · exact List.mem_cons_of_mem _ (ih h)
    have := h _ (this es hg)
    cases this

/-- Rendering tells the commands of the content, with the texts which they show. -/
theorem shows_tells {enc : Nat → Bytes} (ha : AsciiBased enc) {h : Host} {res : Resources} (hn : Named res) {onDo : List Obj → DM Paint Unit} {onNav : DM Paint Unit}
    {doOk : Option Bytes → List Obj → Prop} {gsOk : List Obj → Prop} (hq : ∀ args, Quiet (onDo args))
    (hdo : ∀ f fs args, doOk f args → Leaves res (f :: f :: fs) (f :: fs) (onDo args))
    (hgs : ∀ f fs args, gsOk args → Goes res (f :: fs) (f :: fs) (applyGs h res args) ())
    {fs fs' : List (Option Bytes)} {cs : List Content} {ts : List Text} (hs : Shows (decoding h.decode res) doOk gsOk fs cs fs' ts) :
    ∀ ds, Retold enc cs ts ds → ∃ u, SaysText res fs fs' u (notifyAll h res onDo onNav cs) ∧ Tells enc ds u := by
  have step : ∀ {name : Bytes} {args : List Obj} {cs : List Content} {fs fs1 fs2 : List (Option Bytes)} {t u : Text}, SaysText res fs fs1 t (notifyOp h res onDo onNav name args) →
      SaysText res fs1 fs2 u (notifyAll h res onDo onNav cs) → SaysText res fs fs2 (t ++ u) (notifyAll h res onDo onNav (.op name args :: cs)) := fun h1 h2 => says_bind h1 h2
  have printed : ∀ {name : Bytes} {shown : List Arg} {us : List Text}, resMap printArg shown = .ok us → printOp name shown = .ok (10 :: joinText [32] us ++ 32 :: asc name) := by
    intro name shown us e
    unfold printOp
    rw [e]
    rfl
  have someHead : ∀ {fs fs' : List (Option Bytes)} {u : Text} {m : DM Paint Unit}, (∀ f fs0, fs = f :: fs0 → SaysText res fs fs' u m) → SaysText res fs fs' u m := by
    intro fs fs' u m hm p hp
    obtain ⟨f, fs0, e⟩ := paint_cons hp
    exact hm f fs0 e p hp
  induction hs with
  | nil fs =>
    intro ds hr
    cases hr
    exact ⟨[], fun p hp => ⟨p, rfl, hp, (List.append_nil _).symm⟩, tells_nil⟩
  | image d data fs fs' cs ts hi _ ih => intro ds hr; cases hr
  | save args f fs fs' cs ts hp _ ih =>
    intro ds hr
    cases hr with
    | other _ _ _ ds _ _ hsay hl hr =>
      obtain ⟨u, i, j⟩ := ih ds hr
      obtain ⟨us, e1, e2⟩ := sayable_args ha args hsay
      exact ⟨_, step (says_notifyOp hq (by decide) (by decide) (by decide) (puts_of_goes (goes_keep args goes_save)) (printed e1)) i, tells_cons ha (by decide) e2 hl j⟩
    | one name o t _ _ _ hname _ => exact absurd hname (by decide)
    | many name xs ys us _ _ _ hname _ _ => exact absurd hname (by decide)
  | restore args f g fs fs' cs ts hp _ ih =>
    intro ds hr
    cases hr with
    | other _ _ _ ds _ _ hsay hl hr =>
      obtain ⟨u, i, j⟩ := ih ds hr
      obtain ⟨us, e1, e2⟩ := sayable_args ha args hsay
      exact ⟨_, step (says_notifyOp hq (by decide) (by decide) (by decide) (puts_of_goes (goes_keep args goes_restore)) (printed e1)) i, tells_cons ha (by decide) e2 hl j⟩
    | one name o t _ _ _ hname _ => exact absurd hname (by decide)
    | many name xs ys us _ _ _ hname _ _ => exact absurd hname (by decide)
  | font n size f fs fs' cs ts hp _ ih =>
    intro ds hr
    cases hr with
    | other _ _ _ ds _ _ hsay hl hr =>
      obtain ⟨u, i, j⟩ := ih ds hr
      obtain ⟨us, e1, e2⟩ := sayable_args ha _ hsay
      exact ⟨_, step (says_notifyOp hq (by decide) (by decide) (by decide) (puts_of_goes (goes_keep _ (goes_font n size))) (printed e1)) i, tells_cons ha (by decide) e2 hl j⟩
  | one name o t f fs fs' cs ts hname hd _ ih =>
    intro ds hr
    generalize hts : t :: ts = tts at hr
    cases hr with
    | one _ _ _ _ ds _ _ hr =>
      obtain ⟨rfl, rfl⟩ := List.cons.inj hts
      obtain ⟨u, i, j⟩ := ih ds hr
      have e2 : Printed enc [.str (encoded enc t)] [quoted t] := .cons _ _ _ _ (quoted_den ha t) .nil
      have e1 : resMap printArg [.text (quoted t)] = .ok [quoted t] := rfl
      rcases hname with rfl | rfl
      · exact ⟨_, step (says_notifyOp hq (by decide) (by decide) (by decide) (puts_showOne hn hd) (printed e1)) i, tells_cons ha (by decide) e2 (fun d h => by cases h) j⟩
      · exact ⟨_, step (says_notifyOp hq (by decide) (by decide) (by decide) (puts_showOne hn hd) (printed e1)) i, tells_cons ha (by decide) e2 (fun d h => by cases h) j⟩
    | many _ xs ys us _ _ _ hname' _ _ =>
      subst hname'
      exact absurd hname (by decide)
    | other _ _ _ ds _ hno _ _ _ =>
      rcases hname with rfl | rfl
      · exact absurd (by decide) hno
      · exact absurd (by decide) hno
  | many xs us f fs fs' cs ts hp ht _ ih =>
    intro ds hr
    generalize hts : us ++ ts = tts at hr
    cases hr with
    | one _ _ _ _ _ _ hname _ => exact absurd hname (by decide)
    | many _ _ ys us' _ ds ts' _ hri hr =>
      obtain ⟨rfl, rfl⟩ := List.append_inj hts (by rw [texts_count ht, retold_count hri])
      obtain ⟨u, i, j⟩ := ih ds hr
      obtain ⟨r, ps, i1, e1, e2⟩ := tells_each (h := h) ha hn (fs := fs) ht hri
      have hm : Puts res (f :: fs) (f :: fs) us [] (showMany h res [.arr xs]) [.list r] := by
        unfold showMany
        have e1 : arg0 [.arr xs] = .ok (.arr xs) := rfl
        rw [e1]
        exact puts_after (goes_pure (Obj.arr xs)) (puts_then i1 (goes_pure _))
      have e3 : resMap printArg [.list r] = .ok [91 :: joinText [32] ps ++ [93]] := by
        unfold resMap
        have : printArg (.list r) = .ok (91 :: joinText [32] ps ++ [93]) := by
          unfold printArg
          dsimp only
          rw [e1]
          rfl
        rw [this]
        rfl
      have e4 : Printed enc [.arr ys] [91 :: joinText [32] ps ++ [93]] := by
        refine .cons _ _ _ _ ?_ .nil
        rw [encoded_append, encoded_cons ha (by decide), encoded_cons ha (by decide)]
        exact .arr _ _ (printed_items ha e2)
      exact ⟨_, step (says_notifyOp hq (by decide) (by decide) (by decide) hm (printed e3)) i, tells_cons ha (by decide) e4 (fun d h => by cases h) j⟩
    | other _ _ _ ds _ hno _ _ _ => exact absurd (by decide) hno
  | xobject args f fs fs' cs ts hp hok _ ih =>
    intro ds hr
    cases hr with
    | other _ _ _ ds _ _ hsay hl hr =>
      obtain ⟨u, i, j⟩ := ih ds hr
      obtain ⟨us, e1, e2⟩ := sayable_args ha args hsay
      exact ⟨_, step (says_notifyDo hq (hdo f fs args hok) (printed e1)) i, tells_cons ha (by decide) e2 hl j⟩
    | one name o t _ _ _ hname _ => exact absurd hname (by decide)
    | many name xs ys us _ _ _ hname _ _ => exact absurd hname (by decide)
  | state args fs fs' cs ts hp hok _ ih =>
    intro ds hr
    cases hr with
    | other _ _ _ ds _ _ hsay hl hr =>
      obtain ⟨u, i, j⟩ := ih ds hr
      obtain ⟨us, e1, e2⟩ := sayable_args ha args hsay
      refine ⟨_, someHead fun f fs0 e => ?_, tells_cons ha (by decide) e2 hl j⟩
      subst e
      exact step (says_notifyOp hq (by decide) (by decide) (by decide) (puts_of_goes (goes_keep args (hgs f fs0 args hok))) (printed e1)) i
    | one name o t _ _ _ hname _ => exact absurd hname (by decide)
    | many name xs ys us _ _ _ hname _ _ => exact absurd hname (by decide)
  | marked name tag props f fs fs' cs ts hname h1 h2 hd _ ih =>
    intro ds hr
    cases hr with
    | other _ _ _ ds _ _ hsay hl hr =>
      obtain ⟨u, i, j⟩ := ih ds hr
      obtain ⟨us, e1, e2⟩ := sayable_args ha _ hsay
      have hprops : decodeProps h res [tag, props] = DM.pure (.ok ([tag, props].map .obj)) := by
        have hpr := hsay props (by simp)
        cases props with
        | dict es =>
          unfold decodeProps
          dsimp only
          cases hg : dictGet es b!"Contents" with
          | none => rfl
          | some o =>
            cases o with
            | str s => exact absurd hg (sayable_noText hpr _ s)
            | _ => rfl
        | _ => rfl
      have hgo : Goes res (f :: fs) (f :: fs) (decodeProps h res [tag, props]) ([tag, props].map .obj) := by rw [hprops]; exact goes_pure _
      rcases hname with rfl | rfl
      · exact ⟨_, step (says_notifyOp hq (by decide) (by decide) (by decide) (puts_of_goes hgo) (printed e1)) i, tells_cons ha (by decide) e2 hl j⟩
      · exact ⟨_, step (says_notifyOp hq (by decide) (by decide) (by decide) (puts_of_goes hgo) (printed e1)) i, tells_cons ha (by decide) e2 hl j⟩
  | other name args fs fs' cs ts h1 h2 h3 hp _ ih =>
    intro ds hr
    cases hr with
    | other _ _ _ ds _ _ hsay hl hr =>
      obtain ⟨u, i, j⟩ := ih ds hr
      obtain ⟨us, e1, e2⟩ := sayable_args ha args hsay
      refine ⟨_, someHead fun f fs0 e => ?_, tells_cons ha h1 e2 hl j⟩
      subst e
      obtain ⟨k1, k2⟩ := operator_facts name h1 h2
      refine step (says_notifyOp hq ?_ ?_ ?_ (puts_of_goes (goes_other k1 (fun hu => h3 (k2 hu)))) (printed e1)) i
      · intro e; rw [e] at k1; exact k1 (by decide)
      · intro e; rw [e] at k1; exact k1 (by decide)
      · intro e; rw [e] at k1; exact k1 (by decide)
    | one _ o t _ _ _ hname _ => rcases hname with rfl | rfl <;> exact absurd (by decide) h2
    | many _ xs ys us _ _ _ hname _ _ => subst hname; exact absurd (by decide) h2

end PdfReader
