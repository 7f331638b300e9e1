/-
  `locate_backwards_from_trailer` finds a dictionary which is written somewhere before the newest section.
-/
import Verif.Spec.Hidden
import Verif.Model.Secure
import Verif.Lemmas.Sealed

namespace PdfReader

open Spec

/-! ### Decimal digits -/

theorem digit_byte (n : Nat) (h : n < 10) : UInt8.ofNat (Nat.digitChar n).toNat = UInt8.ofNat (48 + n) := by
  have : ∀ n : Fin 10, UInt8.ofNat (Nat.digitChar n).toNat = UInt8.ofNat (48 + n) := by decide
  exact this ⟨n, h⟩

theorem decimal_upTo : ∀ (w n : Nat), n < w → decimalBytes n = showUpTo w n
  | 0, _, h => absurd h (Nat.not_lt_zero _)
  | w + 1, n, h => by
    unfold decimalBytes showUpTo
    by_cases hn : n < 10
    · rw [if_pos hn, Nat.toDigits_of_lt_base hn]
      exact congrArg (fun c => [c]) (digit_byte n hn)
    · have ih := decimal_upTo w (n / 10) (by omega)
      unfold decimalBytes at ih
      rw [if_neg hn, Nat.toDigits_of_base_le (by decide) (by omega), List.map_append, ih, List.map_singleton, digit_byte _ (by omega)]

theorem decimal_show (n : Nat) : decimalBytes n = showNat n := decimal_upTo (n + 1) n (by omega)

/-! ### The last occurrence -/

theorem occurs_take {pat s : Bytes} {k : Nat} (h : pat.length + k ≤ s.length) : (s.drop k).take pat.length = pat ↔ OccursAt pat s k := by
  constructor
  · intro e
    refine ⟨s.take k, (s.drop k).drop pat.length, ?_, by rw [List.length_take]; omega⟩
    conv => rhs; rhs; lhs; rw [← e]
    rw [List.take_append_drop, List.take_append_drop]
  · rintro ⟨a, b, rfl, rfl⟩
    rw [List.drop_left, List.take_left]

theorem skipBack_last {file pat : Bytes} {i : Nat} (h0 : OccursAt pat file i) : ∀ (p : Nat), i + pat.length ≤ p → p ≤ file.length → 0 < pat.length →
    (∀ k, OccursAt pat file k → k + pat.length ≤ p → k ≤ i) → skipBack file pat p = some i
  | 0, h, _, hp, _ => by omega
  | p + 1, h, hl, hp, hlast => by
    unfold skipBack
    by_cases e : i + pat.length = p + 1
    · have : p + 1 - pat.length = i := by omega
      rw [this, if_pos ⟨by omega, (occurs_take (by omega)).mpr h0⟩]
    · rw [if_neg, skipBack_last h0 p (by omega) (by omega) hp fun k hk hkp => hlast k hk (by omega)]
      rintro ⟨h1, h2⟩
      have := hlast _ ((occurs_take (by omega)).mp h2) (by omega)
      omega

/-- An occurrence in `a ++ endobj ++ y` which begins after `a` begins at `a` or is in `y`. -/
theorem occurs_after {a y : Bytes} {k : Nat} (h : OccursAt b!"endobj" (a ++ (b!"endobj" ++ y)) k) (hk : a.length < k) :
    ∃ j, k = a.length + 6 + j ∧ OccursAt b!"endobj" y j := by
  obtain ⟨u, v, e, hu⟩ := h
  have h1 : (a ++ (b!"endobj" ++ y)).drop k = b!"endobj" ++ v := by rw [e, ← hu, List.drop_left]
  obtain ⟨m, rfl⟩ : ∃ m, k = a.length + m := ⟨k - a.length, by omega⟩
  rw [← List.drop_drop, List.drop_left] at h1
  by_cases hm : 6 ≤ m
  · obtain ⟨j, rfl⟩ : ∃ j, m = 6 + j := ⟨m - 6, by omega⟩
    refine ⟨j, by omega, y.take j, v, ?_, ?_⟩
    · rw [← List.drop_drop, show (b!"endobj" ++ y).drop 6 = y from rfl] at h1
      rw [← h1, List.take_append_drop]
    · have := congrArg List.length e
      simp at this
      rw [List.length_take]
      have hl : (a.length + (6 + j)) = u.length := hu.symm
      simp at *
      omega
  · exfalso
    have : m = 1 ∨ m = 2 ∨ m = 3 ∨ m = 4 ∨ m = 5 := by omega
    rcases this with rfl | rfl | rfl | rfl | rfl <;> exact absurd (List.cons.inj h1).1 (by decide)

theorem occurs_in_left {pat x y : Bytes} {k : Nat} (h : OccursAt pat (x ++ y) k) (hk : k + pat.length ≤ x.length) : OccursAt pat x k := by
  obtain ⟨u, v, e, rfl⟩ := h
  refine ⟨u, (x.drop (u.length + pat.length)), ?_, rfl⟩
  have := congrArg (List.take (u.length + pat.length)) e
  rw [List.take_append_of_le_length hk, ← List.append_assoc, List.take_left' (by simp)] at this
  rw [← List.append_assoc, ← this, List.take_append_drop]

theorem occurs_shift {pat a y : Bytes} {k : Nat} (h : OccursAt pat y k) : OccursAt pat (a ++ y) (a.length + k) := by
  obtain ⟨u, v, rfl, rfl⟩ := h
  exact ⟨a ++ u, v, by simp, by simp⟩

/-- Going back over one `endobj`: after `x`, which ends with its only `endobj`. -/
theorem back_over {file a x y : Bytes} {p : Nat} (hf : file = a ++ (b!"endobj" ++ (x ++ y))) (hx : EndsOnce x) (hp : a.length + 6 + x.length ≤ p) (hpl : p ≤ file.length)
    (hy : ∀ k, ¬ OccursAt b!"endobj" (y.take (p - (a.length + 6 + x.length))) k) : skipBack file b!"endobj" p = some (a.length + 6 + x.length - 6) := by
  obtain ⟨⟨u, hu⟩, honce⟩ := hx
  have hxl : x.length = u.length + 6 := by rw [hu]; simp
  have hfx : file = (a ++ (b!"endobj" ++ u)) ++ (b!"endobj" ++ y) := by rw [hf, hu]; simp
  have hlen : (a ++ (b!"endobj" ++ u)).length = a.length + 6 + u.length := by simp; omega
  have hyl : file.length = a.length + 6 + x.length + y.length := by rw [hf]; simp; omega
  refine skipBack_last ⟨_, y, hfx, by rw [hlen]; omega⟩ p (by show _ + 6 ≤ p; omega) hpl (by decide) fun k hk hkp => ?_
  have hkp : k + 6 ≤ p := hkp
  refine Nat.le_of_not_lt fun hlt => ?_
  rw [hfx] at hk
  obtain ⟨j, rfl, hj⟩ := occurs_after hk (by rw [hlen]; omega)
  rw [hlen] at hkp
  refine hy j (occurs_in_left (y := y.drop (p - (a.length + 6 + x.length))) (by rw [List.take_append_drop]; exact hj) ?_)
  rw [List.length_take]
  obtain ⟨u', v', e, e'⟩ := hj
  have := congrArg List.length e
  simp at this
  show j + 6 ≤ _
  omega

theorem indText_ends {n g : Nat} {o : Obj} {t : Bytes} (h : IndText n g o t) : ∃ u, t = u ++ b!"endobj" := by
  cases h with
  | mk ns gs s₁ s₂ s₃ s₄ o t =>
    exact ⟨ns ++ (s₁ ++ (gs ++ (s₂ ++ (b!"obj" ++ (s₃ ++ (t ++ s₄)))))), by simp⟩

theorem prefix_take {h r : Bytes} (hp : h <+: r) : r.take h.length = h := by
  obtain ⟨v, rfl⟩ := hp
  exact List.take_left

/-- And over the `endobj` before. -/
theorem back_prev {file a x y : Bytes} (hf : file = a ++ (b!"endobj" ++ (x ++ y))) (hx : EndsOnce x) :
    skipBack file b!"endobj" (a.length + 6 + x.length - 6) = some a.length := by
  obtain ⟨⟨u, hu⟩, honce⟩ := hx
  have hxl : x.length = u.length + 6 := by rw [hu]; simp
  have hyl : file.length = a.length + 6 + x.length + y.length := by rw [hf]; simp; omega
  refine skipBack_last ⟨a, x ++ y, hf, rfl⟩ _ (by show _ + 6 ≤ _; omega) (by omega) (by decide) fun k hk hkp => ?_
  have hkp : k + 6 ≤ a.length + 6 + x.length - 6 := hkp
  refine Nat.le_of_not_lt fun hlt => ?_
  rw [hf] at hk
  obtain ⟨j, rfl, hj⟩ := occurs_after hk hlt
  have := honce j (occurs_in_left hj (by show j + 6 ≤ _; omega))
  omega

theorem ends_before {pre s t hdr : Bytes} (honce : EndsOnce (s ++ t)) : ∀ {l : List Bytes}, (∀ x ∈ l, Piece hdr x) →
    ∃ A, pre ++ (b!"endobj" ++ (s ++ (t ++ l.flatten))) = A ++ b!"endobj" := by
  intro l hl
  rcases List.eq_nil_or_concat l with rfl | ⟨l', x, rfl⟩
  · obtain ⟨⟨u, hu⟩, _⟩ := honce
    refine ⟨pre ++ (b!"endobj" ++ u), ?_⟩
    rw [List.flatten_nil, List.append_nil, hu]
    simp
  · obtain ⟨_, _, _, _, _, ⟨⟨u, hu⟩, _⟩, _⟩ := hl x (by simp)
    refine ⟨pre ++ (b!"endobj" ++ (s ++ (t ++ (l'.flatten ++ u)))), ?_⟩
    rw [List.concat_eq_append, List.flatten_append, List.flatten_singleton, hu]
    simp

/-- One round of the loop. -/
theorem back_round {file hdr a s t y : Bytes} {p fuel : Nat} (hf : file = a ++ (b!"endobj" ++ ((s ++ t) ++ y))) (hx : EndsOnce (s ++ t)) (hs : Sep s) (ht : NotStart SepChar (t ++ y))
    (hp : a.length + 6 + (s ++ t).length ≤ p) (hpl : p ≤ file.length) (hl : hdr.length ≤ t.length)
    (hy : ∀ k, ¬ OccursAt b!"endobj" (y.take (p - (a.length + 6 + (s ++ t).length))) k) :
    backLoop file hdr (fuel + 1) p = if t.take hdr.length = hdr then .ok (some (a.length + 6 + s.length)) else backLoop file hdr fuel (a.length + 6 + s.length + hdr.length) := by
  have hdrop : file.drop (a.length + 6) = s ++ (t ++ y) := by
    rw [hf, ← List.drop_drop, List.drop_left]
    simp
  have hfl : file.length = a.length + 6 + s.length + (t ++ y).length := by rw [hf]; simp; omega
  rw [backLoop, back_over hf hx hp hpl hy]
  dsimp only
  rw [back_prev hf hx]
  dsimp only
  rw [hdrop, skipSC_sep hs ht]
  dsimp only
  rw [if_neg (by simp; omega), List.take_append_of_le_length hl, show file.length - (t ++ y).length = a.length + 6 + s.length by omega]

/-- The loop, from behind the pieces `l`, which follow the object `t`. -/
theorem back_loop {file hdr pre s t : Bytes} (hs : Sep s) (hne : 0 < hdr.length) (ht : NotStart SepChar t) (hhdr : hdr <+: t) (honce : EndsOnce (s ++ t)) :
    ∀ (n : Nat) (l : List Bytes) (y : Bytes) (p fuel : Nat), l.length = n → (∀ x ∈ l, Piece hdr x) → file = pre ++ (b!"endobj" ++ (s ++ (t ++ (l.flatten ++ y)))) →
      pre.length + 6 + (s ++ t).length + l.flatten.length ≤ p → p ≤ file.length →
      (∀ k, ¬ OccursAt b!"endobj" (y.take (p - (pre.length + 6 + (s ++ t).length + l.flatten.length))) k) → n < fuel →
      backLoop file hdr fuel p = .ok (some (pre.length + 6 + s.length)) := by
  intro n
  induction n with
  | zero =>
    intro l y p fuel hl _ hf hp hpl hy hfu
    obtain rfl := List.length_eq_zero_iff.mp hl
    obtain ⟨f, rfl⟩ : ∃ f, fuel = f + 1 := ⟨fuel - 1, by omega⟩
    rw [List.flatten_nil, List.length_nil, Nat.add_zero] at hp hy
    have hf1 : file = pre ++ (b!"endobj" ++ ((s ++ t) ++ y)) := by rw [hf]; simp
    have htne : NotStart SepChar (t ++ y) := by
      have htl := hhdr.length_le
      cases t with
      | nil => rw [List.length_nil] at htl; omega
      | cons c t => intro c' t' e; cases e; exact ht c t rfl
    rw [back_round hf1 honce hs htne hp hpl hhdr.length_le hy, if_pos (prefix_take hhdr)]
  | succ n ih =>
    intro l y p fuel hl hpc hf hp hpl hy hfu
    obtain ⟨f, rfl⟩ : ∃ f, fuel = f + 1 := ⟨fuel - 1, by omega⟩
    rcases List.eq_nil_or_concat l with rfl | ⟨l', x, rfl⟩
    · cases hl
    · obtain ⟨s', t', rfl, hs', ht', hx, hlt, hno⟩ := hpc x (by simp)
      have hpc' : ∀ x ∈ l', Piece hdr x := fun z hz => hpc z (by rw [List.concat_eq_append]; exact List.mem_append_left _ hz)
      rw [List.concat_eq_append, List.flatten_append, List.flatten_singleton] at hf hp hy
      rw [List.concat_eq_append, List.length_append] at hl
      obtain ⟨A, hA⟩ := ends_before (pre := pre) honce hpc'
      have hAl : A.length + 6 = pre.length + 6 + (s ++ t).length + l'.flatten.length := by
        have := congrArg List.length hA
        simp at this ⊢
        omega
      have hf1 : file = A ++ (b!"endobj" ++ ((s' ++ t') ++ y)) := by
        rw [← List.append_assoc A, ← hA, hf]
        simp
      have htne : NotStart SepChar (t' ++ y) := by
        cases t' with
        | nil => simp at hlt
        | cons c t => intro c' t' e; cases e; exact ht' c t rfl
      have hll : (l'.flatten ++ (s' ++ t')).length = l'.flatten.length + (s' ++ t').length := List.length_append
      rw [show pre.length + 6 + (s ++ t).length + (l'.flatten ++ (s' ++ t')).length = A.length + 6 + (s' ++ t').length by omega] at hp hy
      have hfl : file.length = A.length + 6 + (s' ++ t').length + y.length := by rw [hf1]; simp; omega
      have hst : (s' ++ t').length = s'.length + t'.length := by simp
      rw [back_round hf1 hx hs' htne hp hpl (by omega) hy]
      rw [if_neg fun e => hno ⟨t'.drop hdr.length, (congrArg (fun z => z ++ t'.drop hdr.length) e).symm.trans (List.take_append_drop _ _)⟩]
      refine ih l' ((s' ++ t') ++ y) _ f (by simpa using hl) hpc' (by rw [hf]; simp) (by omega) (by omega) ?_ (by omega)
      rw [← hAl, show A.length + 6 + s'.length + hdr.length - (A.length + 6) = s'.length + hdr.length by omega, List.take_append_of_le_length (by omega)]
      intro k hk
      have := hx.2 k (by
        obtain ⟨u, v, e, hu⟩ := hk
        refine ⟨u, v ++ (s' ++ t').drop (s'.length + hdr.length), ?_, hu⟩
        refine (List.take_append_drop (s'.length + hdr.length) (s' ++ t')).symm.trans ?_
        rw [e]
        simp only [List.append_assoc])
      obtain ⟨u, v, e, hu⟩ := hk
      have hl2 := congrArg List.length e
      simp at hl2
      omega

theorem pieces_length {hdr : Bytes} : ∀ {l : List Bytes}, (∀ x ∈ l, Piece hdr x) → l.length ≤ l.flatten.length
  | [], _ => Nat.le_refl _
  | x :: l, h => by
    have ih := pieces_length fun y hy => h y (List.mem_cons_of_mem _ hy)
    obtain ⟨s, t, rfl, _, _, _, hl, _⟩ := h x List.mem_cons_self
    rw [List.flatten_cons, List.length_cons, List.length_append, List.length_append]
    omega

theorem header_pos (n g : Nat) : 0 < (plainHeader n g).length := by
  unfold plainHeader
  simp
  omega

theorem indText_start {n g : Nat} {o : Obj} {t : Bytes} (h : IndText n g o t) : NotStart SepChar t := by
  cases h with
  | mk ns gs s₁ s₂ s₃ s₄ o t hn => exact digits_notSep hn

/-- A dictionary which is hidden before the newest section is found. -/
theorem back_found {clamps : Bool} {env : Env} {off n g : Nat} {d : List (Bytes × Obj)} (hx : xrefOffset clamps env.file = .ok off) (hh : HiddenAt env.file off n g d)
    (hpl : ∀ n g x, env.dec n g x = .ok x) (fuel : Nat) (s : St) :
    backLocate clamps (fuel + 1) env n g s = (.ok (some (.dict d)), s.note (n, g) (.dict d)) := by
  obtain ⟨pre, sp, t, l, gap, sect, hf, hsect, hsp, ht, hhdr, honce, hpc, hgap, hlen, hno⟩ := hh
  have hfl : env.file.length = pre.length + 6 + (sp ++ t).length + l.flatten.length + gap.length + sect.length := by
    conv => lhs; rw [hf]
    simp
    omega
  have hsl : sect.length = env.file.length - off := by rw [hsect, List.length_drop]
  have hpos := header_pos n g
  have hpcl := pieces_length hpc
  unfold backLocate
  rw [hx]
  dsimp only
  rw [decimal_show, decimal_show, ← hsect]
  rw [show showNat n ++ (b!" " ++ (showNat g ++ b!" obj")) = plainHeader n g from rfl]
  rw [if_neg (by omega), if_neg fun e => hno ⟨sect.drop (plainHeader n g).length, (congrArg (fun z => z ++ sect.drop (plainHeader n g).length) e).symm.trans (List.take_append_drop _ _)⟩]
  rw [back_loop hsp hpos (indText_start ht) hhdr honce l.length l (gap ++ sect) _ _ rfl hpc hf (by omega) (by omega) ?_ (by omega)]
  · dsimp only
    have hdrop : env.file.drop (pre.length + 6 + sp.length) = t ++ (l.flatten ++ (gap ++ sect)) := by
      rw [hf, ← List.drop_drop, ← List.drop_drop, List.drop_left]
      show (List.drop sp.length (sp ++ _)) = _
      rw [List.drop_left]
    rw [parseAt, hdrop, indirect_text (askCfg []) (askCfg_noDiv _) rfl ht]
    dsimp only
    rw [hpl]
    dsimp only
    rw [register_plain _ _ _ _ _ _ rfl]
  · intro k hk
    refine hgap k ?_
    rw [show off + (plainHeader n g).length - (pre.length + 6 + (sp ++ t).length + l.flatten.length) = gap.length + (plainHeader n g).length by omega,
      List.take_length_add_append] at hk
    exact hk

end PdfReader
