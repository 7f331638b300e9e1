/-
  Lemmas about CMaps: values of codes, lookups.
-/
import Verif.Lemmas.Content
import Verif.Spec.CMap

namespace PdfReader

open Spec

/-! ### Values -/

theorem upHex_facts : ∀ c : Byte, c ∈ (b!"0123456789ABCDEF") → (hexVal? c).isSome = true ∧ upperAscii c = c ∧ upperHex c = c :=
  forall_u8 _ (by decide +kernel)

theorem hexVal_some {c : Byte} (h : c ∈ (b!"0123456789ABCDEF")) : ∃ v, hexVal? c = some v :=
  Option.isSome_iff_exists.mp (upHex_facts c h).1

/-- The accumulating step of `hexNat`. -/
def hexStep (a : Res Nat) (c : Byte) : Res Nat :=
  match a, hexVal? c with | .ok n, some v => .ok (16 * n + v) | _, _ => .error .valueError

theorem hexFold (d : Bytes) (h : UpHex d) : ∀ a, d.foldl hexStep (.ok a) = .ok (a * 16 ^ d.length + hexValue d) := by
  induction d with
  | nil => intro a; simp [hexValue]
  | cons c d ih =>
    intro a
    obtain ⟨v, hv⟩ := hexVal_some (h c List.mem_cons_self)
    have : hexStep (.ok a) c = .ok (16 * a + v) := by unfold hexStep; rw [hv]
    rw [List.foldl_cons, this, ih (fun x hx => h x (List.mem_cons_of_mem _ hx))]
    have : hexValue (c :: d) = v * 16 ^ d.length + hexValue d := by
      show (hexVal? c).getD 0 * 16 ^ d.length + hexValue d = _
      rw [hv]
      rfl
    rw [this, List.length_cons, Nat.pow_succ, Nat.add_mul]
    congr 1
    rw [Nat.mul_comm 16 a, Nat.mul_assoc, Nat.mul_comm (16 ^ d.length) 16, Nat.add_assoc]

theorem hexNat_val {d : Bytes} (hne : d ≠ []) (h : UpHex d) : hexNat d = .ok (hexValue d) := by
  unfold hexNat
  rw [if_neg hne]
  have := hexFold d h 0
  simp only [Nat.zero_mul, Nat.zero_add] at this
  exact this

theorem upHex_map {d : Bytes} (h : UpHex d) : d.map upperAscii = d := by
  induction d with
  | nil => rfl
  | cons c d ih =>
    rw [List.map_cons, (upHex_facts c (h c List.mem_cons_self)).2.1, ih (fun x hx => h x (List.mem_cons_of_mem _ hx))]

theorem units_eq (n : Nat) : ∀ d : Bytes, d.length ≤ n → UpHex d → units d = .ok (unitsOf d) := by
  induction n with
  | zero =>
    intro d h _
    have : d = [] := List.eq_nil_of_length_eq_zero (by omega)
    subst this
    rw [unitsOf]
    rfl
  | succ n ih =>
    intro d hl h
    match d with
    | [] => rw [unitsOf]; rfl
    | [a] =>
      rw [units, hexNat_val (by simp) h, unitsOf, dif_neg (by simp), unitsOf, dif_pos (by simp)]
      rfl
    | [a, b] =>
      rw [units, hexNat_val (by simp) h, unitsOf, dif_neg (by simp), unitsOf, dif_pos (by simp)]
      rfl
    | [a, b, c] =>
      rw [units, hexNat_val (by simp) h, unitsOf, dif_neg (by simp), unitsOf, dif_pos (by simp)]
      rfl
    | a :: b :: c :: d :: r =>
      have h4 : UpHex [a, b, c, d] := by
        intro x hx
        refine h x ?_
        simp only [List.mem_cons, List.not_mem_nil, or_false] at hx ⊢
        rcases hx with h | h | h | h <;> simp [h]
      have hr : UpHex r := fun x hx => h x (by simp [hx])
      rw [units, hexNat_val (by simp) h4]
      dsimp only
      rw [ih r (by simp only [List.length_cons] at hl; omega) hr]
      have e : unitsOf (a :: b :: c :: d :: r) = hexValue [a, b, c, d] :: unitsOf r := by
        rw [unitsOf, dif_neg (by simp)]
        rfl
      rw [e]

theorem units_val {d : Bytes} (h : UpHex d) : units d = .ok (unitsOf d) := units_eq d.length d (Nat.le_refl _) h

theorem hexValue_lt {d : Bytes} (h : UpHex d) : hexValue d < 16 ^ d.length := by
  induction d with
  | nil => simp [hexValue]
  | cons c d ih =>
    have hd := ih (fun x hx => h x (List.mem_cons_of_mem _ hx))
    have hc : (hexVal? c).getD 0 < 16 := by
      have : ∀ c : Byte, (hexVal? c).getD 0 < 16 := forall_u8 _ (by decide +kernel)
      exact this c
    rw [hexValue, List.length_cons, Nat.pow_succ]
    have := Nat.mul_le_mul_right (16 ^ d.length) (show (hexVal? c).getD 0 + 1 ≤ 16 from hc)
    rw [Nat.add_mul, Nat.one_mul] at this
    omega

/-! ### The code of a number -/

theorem hexDigitUp_facts : ∀ n, n < 16 → hexDigitUp n ∈ (b!"0123456789ABCDEF") ∧ hexVal? (hexDigitUp n) = some n := by
  have h : ∀ n : Fin 16, hexDigitUp n.val ∈ (b!"0123456789ABCDEF") ∧ hexVal? (hexDigitUp n.val) = some n.val := by decide +kernel
  intro n hn
  exact h ⟨n, hn⟩

theorem hexValue_append (a b : Bytes) : hexValue (a ++ b) = hexValue a * 16 ^ b.length + hexValue b := by
  induction a with
  | nil => simp [hexValue]
  | cons c a ih =>
    rw [List.cons_append, hexValue, hexValue, ih, List.length_append, Nat.pow_add, Nat.add_mul, Nat.mul_assoc, Nat.add_assoc]

theorem hexOf_facts (f : Nat) : ∀ n, n < 16 ^ f → UpHex (hexOf f n) ∧ hexValue (hexOf f n) = n ∧ (hexOf f n).length ≤ f := by
  induction f with
  | zero =>
    intro n h
    have : n = 0 := by simp at h; omega
    subst this
    exact ⟨(by intro c hc; cases hc), rfl, Nat.le_refl _⟩
  | succ f ih =>
    intro n h
    rw [hexOf]
    by_cases h0 : n = 0
    · subst h0
      rw [if_pos rfl]
      exact ⟨(by intro c hc; cases hc), rfl, Nat.zero_le _⟩
    · rw [if_neg h0]
      have hq : n / 16 < 16 ^ f := by
        rw [Nat.pow_succ] at h
        exact Nat.div_lt_of_lt_mul (by rw [Nat.mul_comm]; exact h)
      obtain ⟨h1, h2, h3⟩ := ih (n / 16) hq
      have hd := hexDigitUp_facts (n % 16) (Nat.mod_lt _ (by decide))
      refine ⟨?_, ?_, ?_⟩
      · intro c hc
        rw [List.mem_append, List.mem_singleton] at hc
        rcases hc with hc | hc
        · exact h1 c hc
        · rw [hc]; exact hd.1
      · rw [hexValue_append, h2]
        show n / 16 * 16 ^ 1 + ((hexVal? (hexDigitUp (n % 16))).getD 0 * 16 ^ 0 + 0) = n
        rw [hd.2]
        simp only [Option.getD_some]
        omega
      · rw [List.length_append, List.length_singleton]
        omega

theorem hexValue_zeros (k : Nat) (d : Bytes) : hexValue (List.replicate k 48 ++ d) = hexValue d := by
  induction k with
  | zero => rfl
  | succ k ih =>
    rw [List.replicate_succ, List.cons_append, hexValue, ih]
    show 0 * _ + _ = _
    omega

theorem zfill_facts {size n : Nat} (h : n < 16 ^ size) :
    UpHex (zfillHex size n) ∧ hexValue (zfillHex size n) = n ∧ (zfillHex size n).length = size := by
  obtain ⟨h1, h2, h3⟩ := hexOf_facts size n h
  unfold zfillHex
  refine ⟨?_, ?_, ?_⟩
  · intro c hc
    rw [List.mem_append] at hc
    rcases hc with hc | hc
    · rw [(List.mem_replicate.mp hc).2]; decide
    · exact h1 c hc
  · rw [hexValue_zeros, h2]
  · rw [List.length_append, List.length_replicate]
    omega

theorem hexVal_inj : ∀ c : Byte, c ∈ (b!"0123456789ABCDEF") → ∀ d : Byte, d ∈ (b!"0123456789ABCDEF") → hexVal? c = hexVal? d → c = d := by
  have h : ∀ c ∈ (b!"0123456789ABCDEF"), ∀ d ∈ (b!"0123456789ABCDEF"), hexVal? c = hexVal? d → c = d := by decide +kernel
  intro c hc d hd
  exact h c hc d hd

theorem hexValue_inj {a : Bytes} : ∀ {b : Bytes}, UpHex a → UpHex b → a.length = b.length → hexValue a = hexValue b → a = b := by
  induction a with
  | nil => intro b _ _ hl _; exact (List.eq_nil_of_length_eq_zero hl.symm).symm
  | cons c a ih =>
    intro b ha hb hl hv
    match b with
    | d :: b =>
      have ha' : UpHex a := fun x hx => ha x (List.mem_cons_of_mem _ hx)
      have hb' : UpHex b := fun x hx => hb x (List.mem_cons_of_mem _ hx)
      have hl' : a.length = b.length := by simpa using hl
      have e1 := hexValue_lt ha'
      have e2 := hexValue_lt hb'
      rw [hexValue, hexValue, hl'] at hv
      rw [hl'] at e1
      have hq : (hexVal? c).getD 0 = (hexVal? d).getD 0 := by
        have h1 : ((hexVal? c).getD 0 * 16 ^ b.length + hexValue a) / 16 ^ b.length = (hexVal? c).getD 0 := by
          rw [Nat.mul_comm, Nat.mul_add_div (Nat.pow_pos (by decide)), Nat.div_eq_of_lt e1, Nat.add_zero]
        have h2 : ((hexVal? d).getD 0 * 16 ^ b.length + hexValue b) / 16 ^ b.length = (hexVal? d).getD 0 := by
          rw [Nat.mul_comm, Nat.mul_add_div (Nat.pow_pos (by decide)), Nat.div_eq_of_lt e2, Nat.add_zero]
        rw [hv] at h1
        rw [← h1, h2]
      obtain ⟨x, hx⟩ := hexVal_some (ha c List.mem_cons_self)
      obtain ⟨y, hy⟩ := hexVal_some (hb d List.mem_cons_self)
      have hcd : c = d := hexVal_inj c (ha c List.mem_cons_self) d (hb d List.mem_cons_self) (by
        rw [hx, hy] at hq
        rw [hx, hy]
        simpa using hq)
      rw [hq] at hv
      rw [hcd, ih ha' hb' hl' (by omega)]

/-! ### Lookups -/

theorem contains_eq {a b x : Bytes} (hl : a.length = b.length) (hx : CodeOk x) (ha : a ≠ []) :
    (CodeRange.mk a.length (hexValue a) (hexValue b)).contains x = .ok (decide (InRange a b x)) := by
  have := hl
  have := ha
  unfold CodeRange.contains InRange
  by_cases h : x.length = a.length
  · rw [if_neg (by simp [h]), hexNat_val hx.1 hx.2]
    simp [h]
  · rw [if_pos h]
    simp [h]

theorem mkRange_ok {a b : Bytes} (ha : a ≠ []) (hl : a.length = b.length) (hle : hexValue a ≤ hexValue b) (ua : UpHex a) (ub : UpHex b) :
    mkRange a b = .ok ⟨a.length, hexValue a, hexValue b⟩ := by
  have hb : b ≠ [] := by
    intro e
    rw [e] at hl
    exact ha (List.eq_nil_of_length_eq_zero hl)
  unfold mkRange
  rw [if_neg (by simp [hl]), hexNat_val ha ua, hexNat_val hb ub]
  dsimp only
  rw [if_neg (by omega)]

theorem get_range {a b x : Bytes} {dst : Int} (hl : a.length = b.length) (hx : CodeOk x) (ha : a ≠ []) (h : InRange a b x) :
    (MapEntry.range ⟨a.length, hexValue a, hexValue b⟩ dst).get x = .ok (charOf (dst + ((hexValue x - hexValue a : Nat) : Int))) := by
  unfold MapEntry.get
  dsimp only
  rw [contains_eq hl hx ha, decide_eq_true h]
  dsimp only
  rw [hexNat_val hx.1 hx.2]
  dsimp only
  have e : dst + ((hexValue x : Int) - (hexValue a : Int)) = dst + ((hexValue x - hexValue a : Nat) : Int) := by
    have := h.2.1
    omega
  rw [e]
  unfold chrOr charOf
  split <;> rfl

/-- The answer, or else the rest. -/
def optRes (o : Option Text) (r : Res Text) : Res Text :=
  match o with | some t => .ok t | none => r

/-- `ms` looks up code `x` as the list of answers `o`: the first answer, or no answer. -/
def Answers (ms : List MapEntry) (x : Bytes) (o : Option Text) : Prop :=
  ∀ ms', mapGet (ms ++ ms') x = optRes o (mapGet ms' x)

theorem answers_nil (x : Bytes) : Answers [] x none := fun _ => rfl

theorem answers_append {ms ns : List MapEntry} {x : Bytes} {o p : Option Text} (h : Answers ms x o) (h' : Answers ns x p) :
    Answers (ms ++ ns) x (o.or p) := by
  intro ms'
  rw [List.append_assoc, h]
  cases o with
  | some t => rfl
  | none => exact h' ms'

theorem answers_get {ms : List MapEntry} {x : Bytes} {o : Option Text} (h : Answers ms x o) :
    mapGet ms x = optRes o (.error .keyError) := by
  have := h []
  rw [List.append_nil] at this
  exact this

theorem answers_range {a b x : Bytes} {dst : Int} (hl : a.length = b.length) (hx : CodeOk x) (ha : a ≠ []) :
    Answers [.range ⟨a.length, hexValue a, hexValue b⟩ dst] x
      (if InRange a b x then some (charOf (dst + ((hexValue x - hexValue a : Nat) : Int))) else none) := by
  intro ms'
  rw [List.singleton_append, mapGet]
  unfold MapEntry.contains
  dsimp only
  rw [contains_eq hl hx ha]
  by_cases h : InRange a b x
  · rw [decide_eq_true h, if_pos h]
    exact get_range hl hx ha h
  · rw [decide_eq_false h, if_neg h]
    rfl

theorem answers_char {a d x : Bytes} (hx : CodeOk x) (hd : UpHex d) : Answers [.char a d] x (if x = a then some (unitsOf d) else none) := by
  intro ms'
  rw [List.singleton_append, mapGet]
  unfold MapEntry.contains
  dsimp only
  rw [upHex_map hx.2]
  by_cases h : x = a
  · rw [decide_eq_true h, if_pos h]
    dsimp only
    unfold MapEntry.get
    dsimp only
    rw [if_neg (by simp [h]), units_val hd]
    rfl
  · rw [decide_eq_false h, if_neg h]
    rfl

theorem mkChar_hex {a d : Bytes} (ha : UpHex a) (hd : UpHex d) : mkChar a (.hex d) = .ok (.char a d) := by
  unfold mkChar
  dsimp only
  rw [upHex_map ha, upHex_map hd]

theorem charsFrom_ok (size : Nat) (k : Nat) : ∀ (n : Nat) (ds : List Bytes), n + k ≤ 16 ^ size → k ≤ ds.length → (∀ d ∈ ds, UpHex d) →
    ∃ ms, charsFrom size k n (ds.map .hex) = .ok ms ∧
      ∀ x, CodeOk x → Answers ms x (if x.length = size ∧ n ≤ hexValue x ∧ hexValue x < n + k then some (unitsOf (ds[hexValue x - n]?.getD [])) else none) := by
  induction k with
  | zero =>
    intro n ds _ _ _
    refine ⟨[], rfl, ?_⟩
    intro x hx
    rw [if_neg (by omega)]
    exact answers_nil x
  | succ k ih =>
    intro n ds hn hl hd
    match ds with
    | d :: ds =>
      obtain ⟨u1, u2, u3⟩ := zfill_facts (size := size) (n := n) (by omega)
      obtain ⟨ms, h1, h2⟩ := ih (n + 1) ds (by omega) (by simpa using hl) (fun x hx => hd x (List.mem_cons_of_mem _ hx))
      refine ⟨.char (zfillHex size n) d :: ms, ?_, ?_⟩
      · rw [List.map_cons, charsFrom, mkChar_hex u1 (hd d List.mem_cons_self)]
        dsimp only
        rw [h1]
      · intro x hx
        have := answers_append (answers_char (a := zfillHex size n) hx (hd d List.mem_cons_self)) (h2 x hx)
        rw [List.singleton_append] at this
        have key : ((if x = zfillHex size n then some (unitsOf d) else none).or
            (if x.length = size ∧ n + 1 ≤ hexValue x ∧ hexValue x < n + 1 + k then some (unitsOf (ds[hexValue x - (n + 1)]?.getD [])) else none)) =
            (if x.length = size ∧ n ≤ hexValue x ∧ hexValue x < n + (k + 1) then some (unitsOf ((d :: ds)[hexValue x - n]?.getD [])) else none) := by
          by_cases e : x = zfillHex size n
          · have c1 : x.length = size := by rw [e, u3]
            have c2 : hexValue x = n := by rw [e, u2]
            rw [if_pos e, if_neg (by omega), if_pos (by omega), c2, Nat.sub_self]
            rfl
          · rw [if_neg e, Option.none_or]
            by_cases c : x.length = size ∧ n + 1 ≤ hexValue x ∧ hexValue x < n + 1 + k
            · rw [if_pos c, if_pos (by omega)]
              obtain ⟨j, hj⟩ : ∃ j, hexValue x - n = j + 1 := ⟨hexValue x - n - 1, by omega⟩
              rw [hj, List.getElem?_cons_succ]
              have : hexValue x - (n + 1) = j := by omega
              rw [this]
            · rw [if_neg c, if_neg]
              intro c'
              by_cases v : hexValue x = n
              · exact e (hexValue_inj hx.2 u1 (by rw [u3]; exact c'.1) (by rw [u2]; exact v))
              · omega
        rw [key] at this
        exact this

theorem row_ok {r : RangeRow} (h : r.Ok) : ∃ ms, rowEntries r.lo r.hi r.dst.obj = .ok ms ∧ ∀ x, CodeOk x → Answers ms x (r.get x) := by
  obtain ⟨h1, h2, h3, h4, h5, h6⟩ := h
  have hr := mkRange_ok h1 h2 h3 h4 h5
  obtain ⟨lo, hi, dst⟩ := r
  dsimp only at *
  cases dst with
  | code d =>
    refine ⟨[.range ⟨lo.length, hexValue lo, hexValue hi⟩ (hexValue d)], ?_, ?_⟩
    · unfold Dst.obj rowEntries
      dsimp only
      rw [hr]
      dsimp only
      rw [hexNat_val h6.1 h6.2]
    · intro x hx
      exact answers_range h2 hx h1
  | num n =>
    refine ⟨[.range ⟨lo.length, hexValue lo, hexValue hi⟩ n], ?_, ?_⟩
    · unfold Dst.obj rowEntries
      dsimp only
      rw [hr]
    · intro x hx
      exact answers_range h2 hx h1
  | list ds =>
    have hlt := hexValue_lt h5
    rw [← h2] at hlt
    obtain ⟨ms, m1, m2⟩ := charsFrom_ok lo.length (hexValue hi + 1 - hexValue lo) (hexValue lo) ds (by omega) (by omega) h6.2
    refine ⟨ms, ?_, ?_⟩
    · unfold Dst.obj rowEntries
      dsimp only
      rw [hr]
      exact m1
    · intro x hx
      have := m2 x hx
      have e : (if x.length = lo.length ∧ hexValue lo ≤ hexValue x ∧ hexValue x < hexValue lo + (hexValue hi + 1 - hexValue lo)
          then some (unitsOf (ds[hexValue x - hexValue lo]?.getD [])) else none) = RangeRow.get ⟨lo, hi, .list ds⟩ x := by
        by_cases c : InRange lo hi x
        · have c' := c
          unfold InRange at c'
          have : RangeRow.get ⟨lo, hi, .list ds⟩ x = some (unitsOf (ds[hexValue x - hexValue lo]?.getD [])) := if_pos c
          rw [this, if_pos (by omega)]
        · have c' := c
          unfold InRange at c'
          have : RangeRow.get ⟨lo, hi, .list ds⟩ x = none := if_neg c
          rw [this, if_neg (by omega)]
      rw [e] at this
      exact this

theorem charEntry_ok {kind : Bytes} {p : Bytes × Bytes} (h : CharOk p) :
    ∃ m, charEntry (decide (kind = b!"bf")) p.1 p.2 = .ok m ∧ ∀ x, CodeOk x → Answers [m] x (charGet kind p x) := by
  by_cases hk : kind = b!"bf"
  · refine ⟨.char p.1 p.2, ?_, ?_⟩
    · unfold charEntry
      rw [if_pos (by simp [hk]), mkChar_hex h.2.1 h.2.2.2]
    · intro x hx
      unfold charGet
      rw [if_pos hk]
      exact answers_char hx h.2.2.2
  · refine ⟨.range ⟨p.1.length, hexValue p.1, hexValue p.1⟩ (hexValue p.2), ?_, ?_⟩
    · unfold charEntry
      rw [if_neg (by simp [hk]), mkRange_ok h.1 rfl (Nat.le_refl _) h.2.1 h.2.1]
      dsimp only
      rw [hexNat_val h.2.2.1 h.2.2.2]
    · intro x hx
      have := answers_range (a := p.1) (b := p.1) (dst := hexValue p.2) rfl hx h.1
      have e : (if InRange p.1 p.1 x then some (charOf ((hexValue p.2 : Int) + ((hexValue x - hexValue p.1 : Nat) : Int))) else none) = charGet kind p x := by
        unfold charGet
        by_cases c : x = p.1
        · have c' : InRange p.1 p.1 x := ⟨by rw [c], by rw [c]; exact Nat.le_refl _, by rw [c]; exact Nat.le_refl _⟩
          rw [if_pos c', if_pos c, if_neg hk, c, Nat.sub_self]
          simp
        · rw [if_neg c, if_neg]
          rintro ⟨c1, c2, c3⟩
          exact c (hexValue_inj hx.2 h.2.1 c1 (by omega))
      rw [e] at this
      exact this

end PdfReader
