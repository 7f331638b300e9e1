/-
  Proofs about content streams: Verif/Model/Content.lean against Verif/Spec/Content.lean.
-/
import Verif.Lemmas.GrammarParse
import Verif.Spec.Content

namespace PdfReader
open Spec

theorem imgEnd_iff (a b c : Byte) : ImgEnd a b c ↔ ((isWs a ∧ b = 69 ∧ c = 73) ∨ (a = 69 ∧ b = 73 ∧ isWs c)) := by
  unfold ImgEnd; rw [ws_iff, ws_iff]

theorem imgData_exact (data : Bytes) (a b c : Byte) (x : Bytes) (h : ImgEnd a b c)
    (hf : ∀ x a' b' c' y, data ++ [a, b, c] = x ++ a' :: b' :: c' :: y → ImgEnd a' b' c' → data.length ≤ x.length) :
    imgData (data ++ (a :: b :: c :: x)) = some (data, x) := by
  induction data with
  | nil =>
    rw [List.nil_append]
    unfold imgData
    rw [if_pos ((imgEnd_iff _ _ _).mp h)]
  | cons d data ih =>
    have ih := ih (by
      intro x a' b' c' y e h'
      have := hf (d :: x) a' b' c' y (by rw [List.cons_append, e]; rfl) h'
      simpa using this)
    have key : ∃ p q r, data ++ (a :: b :: c :: x) = p :: q :: r ∧ ∃ y, d :: data ++ [a, b, c] = d :: p :: q :: y := by
      match data with
      | [] => exact ⟨a, b, c :: x, rfl, [c], rfl⟩
      | [p] => exact ⟨p, a, _, rfl, _, rfl⟩
      | p :: q :: r => exact ⟨p, q, _, rfl, _, rfl⟩
    obtain ⟨p, q, r, e, y, e'⟩ := key
    rw [List.cons_append, e, imgData]
    rw [e] at ih
    have hn : ¬ ((isWs d ∧ p = 69 ∧ q = 73) ∨ (d = 69 ∧ p = 73 ∧ isWs q)) := by
      intro hh
      have := hf [] d p q y e' ((imgEnd_iff _ _ _).mpr hh)
      simp at this
    rw [if_neg hn, ih]
    rfl

theorem entLoop_more {f g : Nat} {acc inp} {x} (hle : f ≤ g)
    (h : entLoop f acc inp = .ok x) : entLoop g acc inp = .ok x := by
  induction hle with
  | refl => exact h
  | step _ ih =>
    rename_i m _
    rcases (fuel_mono m).2.2.2.1 acc inp with h' | h'
    · rw [h'] at ih; cases ih
    · rw [h', ih]

theorem den_not_token {refs : Bool} {x : Syn} {t : Bytes} (h : Den refs x t) : ∀ a, x ≠ .obj (.token a) := by
  intro a e
  cases h <;> cases e

theorem imgEnts_split {raw : List (Bytes × Obj)} {u : Bytes} (h : ImgEnts raw u) :
    ∃ s u', u = s ++ u' ∧ Sep s ∧ ∀ x, NotStart SepChar (u' ++ x) ∧ NotStart (· = 115) (u' ++ x) ∧ u' ≠ [] := by
  cases h with
  | done s hs =>
    refine ⟨s, b!"ID", rfl, hs, fun x => ⟨notStart_mk ?_, notStart_mk (by decide), by decide⟩⟩
    unfold SepChar; rw [ws_iff]; decide
  | cons s k kt s₁ v t es u hs =>
    refine ⟨s, _, rfl, hs, fun x => ⟨notStart_mk ?_, notStart_mk (by decide), by simp⟩⟩
    unfold SepChar; rw [ws_iff]; decide

theorem stop_append {u x : Bytes} (h : Stop u) (hne : u ≠ []) : Stop (u ++ x) := by
  cases u with
  | nil => exact absurd rfl hne
  | cons a b => exact notStart_mk (notStart_cons h)

theorem entLoop_text {raw : List (Bytes × Obj)} {u : Bytes} (h : ImgEnts raw u) : ∀ x acc, ∃ f r0,
    skipSC false (u ++ x) = .ok r0 ∧ entLoop f acc r0 = .ok (raw.foldl (fun d e => dictSet d e.1 e.2) acc, x) := by
  induction h with
  | done s hs =>
    intro x acc
    refine ⟨1, b!"ID" ++ x, ?_, ?_⟩
    · rw [List.append_assoc]
      refine skipSC_sep hs (notStart_mk ?_)
      unfold SepChar; rw [ws_iff]; decide
    · rw [entLoop]; simp
  | cons s k kt s1 v t es u hs hk hs1 hstk hv hst hu ihu =>
    intro x acc
    obtain ⟨f2, r0, h1, h2⟩ := ihu x (dictSet acc k v)
    obtain ⟨s', u', hu', hs', hg⟩ := imgEnts_split hu
    obtain ⟨g1, g2, hne⟩ := hg x
    have e : u ++ x = s' ++ (u' ++ x) := by rw [hu', List.append_assoc]
    have hune : u ≠ [] := by rw [hu']; simp [hne]
    have hfol : Follow false v s' (u' ++ x) :=
      { sep := hs', rest := g1,
        stop := fun hn => by rw [← e]; exact stop_append (hst hn) hune,
        look := (fun h => by cases h), noStream := fun _ => g2 }
    obtain ⟨f1, h3⟩ := den_parse { refs := false, kind := .inline } hv s' (u' ++ x) hfol
    have hr0 : r0 = u' ++ x := by
      rw [e, skipSC_sep hs' g1] at h1
      cases h1; rfl
    obtain ⟨c, t', ht, hc⟩ := den_head hv
    have e2 : s ++ 47 :: (kt ++ (s1 ++ (t ++ u))) ++ x =
        s ++ 47 :: (kt ++ (s1 ++ (t ++ (s' ++ (u' ++ x))))) := by
      rw [← e]; simp
    refine ⟨max f1 f2 + 1, 47 :: (kt ++ (s1 ++ (t ++ (s' ++ (u' ++ x))))), ?_, ?_⟩
    · rw [e2]
      exact skipSC_sep hs (goodRest_of_char rfl (by decide) (by decide) (by decide) rfl (by decide) (by decide)).sep
    · rw [entLoop]
      rw [if_neg (by simp)]
      have hstop2 : Stop (s1 ++ (t ++ (s' ++ (u' ++ x)))) := by
        rw [← List.append_assoc]
        apply stop_append hstk
        rw [ht]; simp
      rw [nameP_text hk hstop2]
      simp only
      rw [skipSC_sep hs1 (by rw [ht, List.cons_append]; exact objStart_notSep hc)]
      simp only
      rw [objectP_okmore (Nat.le_max_left f1 f2) h3]
      have hnt : ∀ a, v ≠ .token a := fun a ha => den_not_token hv a (by rw [ha])
      have fin : (match skipSC false (leftover v s' (u' ++ x)) with
            | .error e => (Except.error e : PRes (List (Bytes × Obj)))
            | .ok r3 => entLoop (max f1 f2) (dictSet acc k v) r3) =
          .ok (((k, v) :: es).foldl (fun d e => dictSet d e.1 e.2) acc, x) := by
        rw [leftover_skip hs' g1]
        simp only
        rw [← hr0, entLoop_more (Nat.le_max_right f1 f2) h2]
        simp
      cases v <;> first | exact fin | exact absurd rfl (hnt _)

theorem imageP_text {data t x : Bytes} {es : List (Bytes × Obj)} (h : ImgText es data t) :
    ∃ f, imageP f (t ++ x) = .ok (.image es data, x) := by
  cases h with
  | mk raw u w data a b c hu hst hw hend hfirst =>
    obtain ⟨f, r0, h1, h2⟩ := entLoop_text hu (w :: (data ++ (a :: b :: c :: x))) []
    refine ⟨f + 1, ?_⟩
    have e : u ++ w :: (data ++ [a, b, c]) ++ x = u ++ w :: (data ++ (a :: b :: c :: x)) := by simp
    rw [e, imageP, h1]
    simp only
    rw [h2]
    simp only
    rw [if_pos ((ws_iff w).mp hw), imgData_exact data a b c x hend hfirst, foldl_dictSet]

theorem opText_head {t : Bytes} (h : OpText t) : ∃ c t', t = c :: t' ∧ isRegular c = true ∧ isDigit c = false ∧
    c ≠ 43 ∧ c ≠ 45 ∧ c ≠ 46 := by
  obtain ⟨h1, h2, h3, _⟩ := h
  cases t with
  | nil => exact absurd rfl h1
  | cons c t' =>
    have := notStart_cons h3
    refine ⟨c, t', rfl, (regular_iff c).mp (h2 c (by simp)), ?_, ?_, ?_, ?_⟩
    · cases hd : isDigit c with
      | false => rfl
      | true => exact absurd (Or.inl ((digit_iff c).mpr hd)) this
    · intro e; exact this (Or.inr (Or.inl e))
    · intro e; exact this (Or.inr (Or.inr (Or.inl e)))
    · intro e; exact this (Or.inr (Or.inr (Or.inr e)))

theorem regular_facts : ∀ c : Byte, isRegular c = true → isWs c = false ∧ c ≠ 37 ∧ c ≠ 60 ∧ c ≠ 91 ∧ c ≠ 40 ∧ c ≠ 47 :=
  forall_u8 (fun c => isRegular c = true → isWs c = false ∧ c ≠ 37 ∧ c ≠ 60 ∧ c ≠ 91 ∧ c ≠ 40 ∧ c ≠ 47) (by decide +kernel)

theorem regular_notSep {c : Byte} {t : Bytes} (h : isRegular c = true) : NotStart SepChar (c :: t) := by
  apply notStart_mk
  obtain ⟨h1, h2, _⟩ := regular_facts c h
  rintro (h | h)
  · rw [ws_iff, h1] at h; cases h
  · exact h2 h

theorem tokenP_text {c : Byte} {t x : Bytes} (ht : ∀ b ∈ c :: t, isRegular b = true) (hd : isDigit c = false) (hx : Stop x) :
    tokenP (c :: t ++ x) = .ok (c :: t, x) := by
  have h := spanRegular_append ht hx
  rw [List.cons_append] at h ⊢
  unfold tokenP
  simp only [ht c (by simp), hd, Bool.not_true, Bool.or_false, Bool.false_eq_true, if_false, h]

/-- The dispatch for a token that is not null, true or false. -/
theorem objBody_token {D A I} {c : Byte} {t x : Bytes} (ht : ∀ b ∈ c :: t, isRegular b = true) (hd : isDigit c = false)
    (h43 : c ≠ 43) (h45 : c ≠ 45) (h46 : c ≠ 46) (hx : Stop x)
    (hk : c :: t ∉ ([b!"null", b!"true", b!"false"] : List Bytes)) :
    objBody contentCfg D A I c (t ++ x) = if c :: t = b!"BI" then I x else .ok (.token (c :: t), x) := by
  obtain ⟨_, _, h60, h91, h40, h47⟩ := regular_facts c (ht c (by simp))
  have htok := tokenP_text ht hd hx
  rw [List.cons_append] at htok
  simp only [List.mem_cons, List.not_mem_nil, or_false, not_or] at hk
  unfold objBody
  by_cases hn : c = 110 ∨ c = 102 ∨ c = 116
  · rw [if_pos ⟨rfl, hn⟩]
    unfold nullFalseTrueToken
    rw [htok]
    have : c :: t ≠ b!"BI" := by
      intro e
      injection e with e1 _
      subst e1
      revert hn; decide
    rw [if_neg this]
    simp [hk.1, hk.2.1, hk.2.2]
  · have h2 := hn
    rw [not_or, not_or] at h2
    rw [if_neg (by rintro ⟨_, h⟩; exact hn h), if_neg h60, if_neg h91, if_neg h40, if_neg h2.1, if_neg h2.2.1,
      if_neg h2.2.2, if_neg (by rintro (h | h | h) <;> contradiction), hd]
    simp only [Bool.false_eq_true, if_false, if_neg h47]
    unfold otherP
    simp only [contentCfg]
    rw [htok]

theorem parse_op {s t u : Bytes} (h : OpText t) (hs : Sep s) (hu : Stop u) :
    parseObject contentCfg (s ++ (t ++ u)) = .ok (.token t, u) := by
  apply parseObject_of_fuel contentCfg_noDiv 1
  obtain ⟨c, t', rfl, hr, hd, h1, h2, h3⟩ := opText_head h
  obtain ⟨_, hreg, _, hkw⟩ := h
  rw [objectP, skipSC_sep hs (by rw [List.cons_append]; exact regular_notSep hr)]
  simp only [List.cons_append]
  rw [objBody_token (fun b hb => (regular_iff b).mp (hreg b hb)) hd h1 h2 h3 hu
    (by intro hm; apply hkw; simp only [List.mem_cons] at hm ⊢; rcases hm with h | h | h | h <;> simp_all)]
  rw [if_neg (by intro e; apply hkw; rw [e]; simp)]

theorem parse_image {s t u data : Bytes} {d : List (Bytes × Obj)} (h : ImgText d data t) (hs : Sep s) :
    parseObject contentCfg (s ++ (b!"BI" ++ (t ++ u))) = .ok (.image d data, u) := by
  obtain ⟨f, hf⟩ := imageP_text (x := u) h
  apply parseObject_of_fuel contentCfg_noDiv (f + 1)
  have hst : Stop (t ++ u) := by
    cases h with
    | mk raw v w data a b c hu hst hw hend hfirst =>
      apply stop_append _ (by simp)
      apply stop_append hst
      intro hv
      subst hv
      generalize hz : ([] : Bytes) = z at hu
      cases hu with
      | done s hs => cases s <;> cases hz
      | cons s => cases s <;> cases hz
  have hreg : ∀ b ∈ (66 :: [73] : Bytes), isRegular b = true := by decide
  rw [objectP, show (b!"BI" : Bytes) ++ (t ++ u) = 66 :: ([73] ++ (t ++ u)) from rfl, skipSC_sep hs (regular_notSep (c := 66) rfl)]
  have := objBody_token (D := fun i => dictLoop contentCfg f [] i) (A := fun i => arrLoop contentCfg f i)
    (I := fun i => imageP f i) (c := 66) (t := [73]) (x := t ++ u) hreg rfl (by decide) (by decide) (by decide) hst (by decide)
  simp only [List.cons_append, List.nil_append] at this ⊢
  rw [this]
  simp [hf]

theorem isOperatorTok_of {t : Bytes} (h : OpText t) : isOperatorTok t = true := by
  obtain ⟨c, t', rfl, hr, hd, h1, h2, h3⟩ := opText_head h
  have key : ∀ c : Byte, isRegular c = true → isDigit c = false → c ≠ 43 → c ≠ 45 → c ≠ 46 →
      (!(b!"/01234567890+-.<[(").contains c) = true :=
    forall_u8 (fun c => isRegular c = true → isDigit c = false → c ≠ 43 → c ≠ 45 → c ≠ 46 →
      (!(b!"/01234567890+-.<[(").contains c) = true) (by decide +kernel)
  exact key c hr hd h1 h2 h3

theorem contentText_skip {ops : List Obj} {cs : List Content} {t : Bytes} (h : ContentText ops cs t) :
    ∃ s r, t = s ++ r ∧ Sep s ∧ NotStart SepChar r := by
  cases h with
  | done s hs => exact ⟨t, [], by simp, by assumption, notStart_nil⟩
  | operand _ _ s o t s' r hs hd =>
    obtain ⟨c, t', rfl, hc⟩ := den_head hd
    exact ⟨s, _, rfl, hs, objStart_notSep hc⟩
  | op _ cs s t u hs ho =>
    obtain ⟨c, t', rfl, hr, _⟩ := opText_head ho
    exact ⟨s, _, rfl, hs, regular_notSep hr⟩
  | image _ cs s d data t u hs => exact ⟨s, _, rfl, hs, regular_notSep (c := 66) rfl⟩

theorem parse_lt {inp : Bytes} {o : Obj} {r : Bytes} (h : parseObject contentCfg inp = .ok (o, r)) : r.length < inp.length := by
  have := (dropOk ((parser_good _).1 contentCfg inp) h).2
  omega

theorem skip_le {a b : Bytes} (h : skipSC false a = .ok b) : b.length ≤ a.length := (skipSC_ok h).length_le

/-- Main induction. -/
theorem content_text {ops : List Obj} {cs : List Content} {t : Bytes} (h : ContentText ops cs t) :
    ∃ r0, skipSC false t = .ok r0 ∧ ∀ f, r0.length < f → contentLoop f ops r0 = (cs, none) := by
  induction h with
  | done ops s hs =>
    have := skipSC_sep hs (r := []) notStart_nil
    rw [List.append_nil] at this
    refine ⟨[], this, fun f hf => ?_⟩
    cases f with
    | zero => simp at hf
    | succ f => rw [contentLoop]; simp
  | operand ops cs s o t s' r hs hd hs' hr hst hns hrest ih =>
    obtain ⟨r0, h1, h2⟩ := ih
    obtain ⟨c, t', ht, hc⟩ := den_head hd
    have hne : t ++ (s' ++ r) ≠ [] := by rw [ht]; simp
    refine ⟨t ++ (s' ++ r), skipSC_sep hs (by rw [ht, List.cons_append]; exact objStart_notSep hc), fun f hf => ?_⟩
    cases f with
    | zero => simp at hf
    | succ f =>
      have hfol : Follow contentCfg.refs o s' r :=
        { sep := hs', rest := hr, stop := hst, look := (fun h => by cases h), noStream := hns }
      have hp := parse_den contentCfg contentCfg_noDiv (s0 := []) hd .nil hfol
      rw [List.nil_append] at hp
      have hlt := parse_lt hp
      have hsk := leftover_skip (o := o) hs' hr
      have hr0 : r0 = r := by rw [skipSC_sep hs' hr] at h1; cases h1; rfl
      subst hr0
      have hle := skip_le hsk
      have hk : contentLoop f (ops ++ [o]) r0 = (cs, none) := h2 f (by omega)
      rw [contentLoop, if_neg hne, hp]
      have hnt : ∀ a, o ≠ .token a := fun a ha => den_not_token hd a (by rw [ha])
      have hni : ∀ a b, o ≠ .image a b := by
        intro a b e; subst e; cases hd
      have fin : afterBlanks (leftover o s' r0) (contentLoop f (ops ++ [o])) = (cs, none) := by
        unfold afterBlanks; rw [hsk]; exact hk
      cases o <;> first | exact fin | exact absurd rfl (hnt _) | exact absurd rfl (hni _ _)
  | op ops cs s t u hs ho hu hrest ih =>
    obtain ⟨r0, h1, h2⟩ := ih
    obtain ⟨c, t', ht, hr, _⟩ := opText_head ho
    have hne : t ++ u ≠ [] := by rw [ht]; simp
    refine ⟨t ++ u, skipSC_sep hs (by rw [ht, List.cons_append]; exact regular_notSep hr), fun f hf => ?_⟩
    cases f with
    | zero => simp at hf
    | succ f =>
      have hp := parse_op (s := []) ho .nil hu
      rw [List.nil_append] at hp
      have hlt := parse_lt hp
      have hle := skip_le h1
      rw [contentLoop, if_neg hne, hp]
      simp only [isOperatorTok_of ho, if_true, afterBlanks, h1, h2 f (by omega), yielded]
  | image ops cs s d data t u hs hi hrest ih =>
    obtain ⟨r0, h1, h2⟩ := ih
    refine ⟨b!"BI" ++ (t ++ u), skipSC_sep hs (regular_notSep (c := 66) rfl), fun f hf => ?_⟩
    cases f with
    | zero => simp at hf
    | succ f =>
      have hp := parse_image (s := []) (u := u) hi .nil
      rw [List.nil_append] at hp
      have hlt := parse_lt hp
      have hle := skip_le h1
      rw [contentLoop, if_neg (by simp), hp]
      simp only [afterBlanks, h1, h2 f (by omega), yielded]

end PdfReader
