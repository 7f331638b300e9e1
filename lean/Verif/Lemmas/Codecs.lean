/-
  Text encodings.
-/
import Verif.Model.Codecs
import Verif.Spec.Codecs
import Verif.Lemmas.CMapDecode

namespace PdfReader

open Spec

/-! ### The cache -/

/-- The text of a table entry, without cache. -/
def glyphPure (zapf : Bool) (o : Obj) : Res Text :=
  match o with
  | .name n => .ok (glyphText zapf n)
  | .hex n => .ok (glyphText zapf n)
  | .token n => .ok (glyphText zapf n)
  | .null => .error .attributeError
  | .real _ _ => .error .attributeError
  | _ => .error .typeError

/-- The text of a byte. -/
def bytePure (c : Codec) (x : Byte) : Res Text :=
  match assoc (x.toNat : Int) c.dec with
  | some o => glyphPure c.zapf o
  | none => .ok [x.toNat]

/-- The text of a string. -/
def decodePure (c : Codec) : Bytes → Res Text
  | [] => .ok []
  | x :: s =>
    match bytePure c x with
    | .error e => .error e
    | .ok g =>
      match decodePure c s with
      | .error e => .error e
      | .ok t => .ok (g ++ t)

/-- A cache which only holds right texts. -/
def CacheOk (zapfOf : Nat → Bool) (cache : GlyphCache) : Prop := ∀ e ∈ cache, e.2 = glyphText (zapfOf e.1.1) e.1.2

theorem assoc_mem {κ ν : Type} [DecidableEq κ] {k : κ} {v : ν} {l : List (κ × ν)} (h : assoc k l = some v) : (k, v) ∈ l := by
  induction l with
  | nil => cases h
  | cons e es ih =>
    unfold assoc at h
    split at h
    · rename_i he
      injection h with h
      subst h
      subst he
      exact List.mem_cons_self
    · exact List.mem_cons_of_mem _ (ih h)

theorem glyphName_pure {zapfOf : Nat → Bool} {c : Codec} (hc : c.zapf = zapfOf c.cls) (o : Obj) {cache : GlyphCache} (h : CacheOk zapfOf cache) :
    (glyphName c o cache).1 = glyphPure c.zapf o ∧ CacheOk zapfOf (glyphName c o cache).2 := by
  have str : ∀ n, (match assoc (c.cls, n) cache with
      | some t => ((.ok t, cache) : Res Text × GlyphCache)
      | none => (.ok (glyphText c.zapf n), ((c.cls, n), glyphText c.zapf n) :: cache)).1 = .ok (glyphText c.zapf n) ∧
      CacheOk zapfOf (match assoc (c.cls, n) cache with
      | some t => ((.ok t, cache) : Res Text × GlyphCache)
      | none => (.ok (glyphText c.zapf n), ((c.cls, n), glyphText c.zapf n) :: cache)).2 := by
    intro n
    cases ha : assoc (c.cls, n) cache with
    | some t =>
      refine ⟨?_, h⟩
      have := h _ (assoc_mem ha)
      dsimp only at this ⊢
      rw [this, hc]
    | none =>
      refine ⟨rfl, ?_⟩
      intro e he
      rcases List.mem_cons.mp he with rfl | he
      · dsimp only
        rw [hc]
      · exact h e he
  cases o <;> first | exact str _ | exact ⟨rfl, h⟩

theorem codecLoop_pure {zapfOf : Nat → Bool} {c : Codec} (hc : c.zapf = zapfOf c.cls) (s : Bytes) : ∀ (res : Text) (cache : GlyphCache), CacheOk zapfOf cache →
    (codecLoop c s res cache).1 = (decodePure c s).map (res ++ ·) ∧ CacheOk zapfOf (codecLoop c s res cache).2 := by
  induction s with
  | nil =>
    intro res cache h
    refine ⟨?_, h⟩
    show Except.ok res = Except.ok (res ++ [])
    rw [List.append_nil]
  | cons x s ih =>
    intro res cache h
    unfold codecLoop decodePure bytePure
    cases ha : assoc (x.toNat : Int) c.dec with
    | none =>
      dsimp only
      obtain ⟨h1, h2⟩ := ih (res ++ [x.toNat]) cache h
      refine ⟨?_, h2⟩
      rw [h1]
      cases decodePure c s with
      | error e => rfl
      | ok t =>
        show Except.ok (res ++ [x.toNat] ++ t) = Except.ok (res ++ ([x.toNat] ++ t))
        rw [List.append_assoc]
    | some o =>
      dsimp only
      obtain ⟨h1, h2⟩ := glyphName_pure hc o h
      generalize glyphName c o cache = p at h1 h2
      obtain ⟨r, cache'⟩ := p
      dsimp only at h1 h2
      subst h1
      cases glyphPure c.zapf o with
      | error e => exact ⟨rfl, h2⟩
      | ok g =>
        dsimp only
        obtain ⟨h1, h2⟩ := ih (res ++ g) cache' h2
        refine ⟨?_, h2⟩
        rw [h1]
        cases decodePure c s with
        | error e => rfl
        | ok t =>
          show Except.ok (res ++ g ++ t) = Except.ok (res ++ (g ++ t))
          rw [List.append_assoc]

theorem codecDecode_pure {zapfOf : Nat → Bool} {c : Codec} (hc : c.zapf = zapfOf c.cls) (s : Bytes) {cache : GlyphCache} (h : CacheOk zapfOf cache) :
    (codecDecode c s cache).1 = decodePure c s ∧ CacheOk zapfOf (codecDecode c s cache).2 := by
  obtain ⟨h1, h2⟩ := codecLoop_pure hc s [] cache h
  refine ⟨?_, h2⟩
  unfold codecDecode
  rw [h1]
  cases decodePure c s <;> rfl

/-- With an empty cache. -/
theorem codecDecode_fresh (c : Codec) (s : Bytes) : (codecDecode c s []).1 = decodePure c s :=
  (codecDecode_pure (zapfOf := fun _ => c.zapf) rfl s (cache := []) (by intro e he; cases he)).1

theorem decodePure_cons (c : Codec) (x : Byte) (s : Bytes) :
    decodePure c (x :: s) = (bytePure c x).bind (fun g => (decodePure c s).bind (fun t => .ok (g ++ t))) := by
  rw [decodePure]
  cases bytePure c x with
  | error e => rfl
  | ok g =>
    cases decodePure c s <;> rfl

theorem decodePure_append (c : Codec) (s t : Bytes) :
    decodePure c (s ++ t) = (decodePure c s).bind (fun a => (decodePure c t).bind (fun b => .ok (a ++ b))) := by
  induction s with
  | nil =>
    show decodePure c t = (decodePure c t).bind (fun b => .ok ([] ++ b))
    cases decodePure c t <;> rfl
  | cons x s ih =>
    rw [List.cons_append, decodePure_cons, decodePure_cons, ih]
    cases bytePure c x with
    | error e => rfl
    | ok g =>
      cases decodePure c s with
      | error e => rfl
      | ok a =>
        cases decodePure c t with
        | error e => rfl
        | ok b =>
          show Except.ok (g ++ (a ++ b)) = Except.ok (g ++ a ++ b)
          rw [List.append_assoc]

theorem decodePure_all {c : Codec} {f : Byte → Text} {s : Bytes} (h : ∀ x ∈ s, bytePure c x = .ok (f x)) : decodePure c s = .ok (s.flatMap f) := by
  induction s with
  | nil => rfl
  | cons x s ih =>
    unfold decodePure
    rw [h x List.mem_cons_self]
    dsimp only
    rw [ih (fun y hy => h y (List.mem_cons_of_mem _ hy))]
    rfl

/-! ### Round trips -/

theorem roundtrip_all {c : Codec} {t : Text} (h : ∀ x ∈ t, bytePure c ((assoc x c.enc).getD (latin1Encode x)) = .ok [x]) :
    decodePure c (codecEncode c t) = .ok t := by
  unfold codecEncode
  induction t with
  | nil => rfl
  | cons x t ih =>
    rw [List.map_cons]
    unfold decodePure
    rw [h x List.mem_cons_self]
    dsimp only
    rw [ih (fun y hy => h y (List.mem_cons_of_mem _ hy))]
    rfl

/-- Whether a byte decodes to one character: a fast check for names. -/
def byteIs (c : Codec) (x : Byte) (ch : Nat) : Bool :=
  match bytePure c x with
  | .ok t => t == [ch]
  | .error _ => false

theorem byteIs_eq {c : Codec} {x : Byte} {ch : Nat} (h : byteIs c x ch = true) : bytePure c x = .ok [ch] := by
  unfold byteIs at h
  split at h
  · rename_i t ht
    rw [ht]
    simp only [beq_iff_eq] at h
    rw [h]
  · cases h

/-! ### Differences -/

theorem diff_names (names : List Bytes) (rest : List Obj) : ∀ (code : Int) (dt : List (Int × Obj)),
    ∃ dt' code', diffLoop (names.map .name ++ rest) (some code) dt = diffLoop rest (some code') dt' ∧
      ∀ c, assoc c dt' = if code ≤ c then ((names[(c - code).toNat]?).map Obj.name).or (assoc c dt) else assoc c dt := by
  induction names with
  | nil =>
    intro code dt
    refine ⟨dt, code, rfl, ?_⟩
    intro c
    split <;> simp
  | cons n names ih =>
    intro code dt
    obtain ⟨dt', code', h1, h2⟩ := ih (code + 1) (tableSet dt code (.name n))
    refine ⟨dt', code', ?_, ?_⟩
    · rw [List.map_cons, List.cons_append, diffLoop]
      · exact h1
      · intro _ h; cases h
      · intro _ h; cases h
    · intro c
      rw [h2]
      unfold tableSet
      simp only [assoc]
      by_cases h : code ≤ c
      · rw [if_pos h]
        by_cases h' : code = c
        · subst h'
          rw [if_neg (by omega), if_pos rfl]
          simp
        · rw [if_pos (by omega), if_neg h']
          have : (c - code).toNat = (c - (code + 1)).toNat + 1 := by omega
          rw [this]
          rfl
      · rw [if_neg (by omega), if_neg (by omega), if_neg h]

theorem diffLoop_runs (runs : List DiffRun) : ∀ (code : Option Int) (dt : List (Int × Obj)),
    ∃ dt', diffLoop (diffArray runs) code dt = .ok dt' ∧ ∀ c, assoc c dt' = ((diffName runs c).map Obj.name).or (assoc c dt) := by
  induction runs with
  | nil =>
    intro code dt
    exact ⟨dt, rfl, fun c => by simp [diffName]⟩
  | cons r runs ih =>
    intro code dt
    obtain ⟨dt1, code', h1, h2⟩ := diff_names r.names (diffArray runs) r.start dt
    obtain ⟨dt2, h3, h4⟩ := ih (some code') dt1
    refine ⟨dt2, ?_, ?_⟩
    · show diffLoop (.int r.start :: (r.names.map Obj.name ++ diffArray runs)) code dt = _
      rw [diffLoop, h1, h3]
    · intro c
      rw [h4, h2]
      unfold diffName
      rw [List.reverse_cons, List.findSome?_append]
      cases runs.reverse.findSome? (fun r => r.get c) with
      | some n => rfl
      | none =>
        simp only [Option.map_none, Option.none_or, List.findSome?_cons, List.findSome?_nil]
        unfold DiffRun.get
        split
        · cases r.names[(c - r.start).toNat]? <;> rfl
        · rfl

/-! ### Keys -/

/-- The name of a key: its digits to the base 256, after those already read. -/
def keyName : Nat → Nat → Bytes → Bytes
  | 0, _, acc => acc
  | fuel + 1, k, acc => if k ≤ 1 then acc else keyName fuel (k / 256) (UInt8.ofNat (k % 256) :: acc)

theorem nameKey_acc (n : Bytes) : ∀ k fuel acc, 1 ≤ k → n.length ≤ fuel →
    keyName fuel (n.foldl (fun k c => k * 256 + c.toNat) k) acc = keyName (fuel - n.length) k (n ++ acc) := by
  intro k fuel acc hk
  induction hn : n.length generalizing n fuel acc with
  | zero =>
    intro _
    rw [List.length_eq_zero_iff.mp hn]
    rfl
  | succ m ih =>
    intro hf
    have hne : n ≠ [] := by intro h; rw [h] at hn; cases hn
    have e := List.dropLast_concat_getLast hne
    generalize n.dropLast = d at e
    generalize n.getLast hne = c at e
    subst e
    rw [List.length_append] at hn
    simp only [List.length_cons, List.length_nil] at hn
    obtain ⟨f, rfl⟩ : ∃ f, fuel = f + 1 := ⟨fuel - 1, by omega⟩
    rw [List.foldl_append]
    show keyName (f + 1) (d.foldl (fun k c => k * 256 + c.toNat) k * 256 + c.toNat) acc = _
    have hpos : 1 ≤ d.foldl (fun k c => k * 256 + c.toNat) k := by
      clear hn ih hf hne
      induction d generalizing k with
      | nil => exact hk
      | cons x d ih =>
        rw [List.foldl_cons]
        exact ih _ (by omega)
    have hc : c.toNat < 256 := c.toNat_lt
    rw [keyName, if_neg (by omega)]
    have h1 : (d.foldl (fun k c => k * 256 + c.toNat) k * 256 + c.toNat) / 256 = d.foldl (fun k c => k * 256 + c.toNat) k := by omega
    have h2 : (d.foldl (fun k c => k * 256 + c.toNat) k * 256 + c.toNat) % 256 = c.toNat := by omega
    rw [h1, h2, ih d f _ (by omega) (by omega)]
    have h3 : UInt8.ofNat c.toNat = c := by simp
    rw [h3, List.append_assoc]
    congr 1
    omega

/-- The key of a name determines it. -/
theorem keyName_key (n : Bytes) (fuel : Nat) (h : n.length ≤ fuel) : keyName fuel (nameKey n) [] = n := by
  unfold nameKey
  rw [nameKey_acc n 1 fuel [] (Nat.le_refl _) h, List.append_nil]
  cases fuel - n.length <;> rfl

theorem nameKey_inj {m n : Bytes} (h : nameKey m = nameKey n) : m = n := by
  have h1 := keyName_key m (max m.length n.length) (by omega)
  have h2 := keyName_key n (max m.length n.length) (by omega)
  rw [h] at h1
  exact h1.symm.trans h2

/-- All keys lie strictly between the bounds and are in order. -/
def GlyphTree.ordered : GlyphTree → Nat → Option Nat → Bool
  | .nil, _, _ => true
  | .node l k _ r, lo, hi => lo < k && (match hi with | some h => k < h | none => true) && l.ordered lo (some k) && r.ordered k hi

theorem ordered_bounds {t : GlyphTree} : ∀ {lo hi}, t.ordered lo hi = true → ∀ e ∈ t.toList, lo < e.1 ∧ ∀ h, hi = some h → e.1 < h := by
  induction t with
  | nil => intro _ _ _ e he; cases he
  | node l k v r ihl ihr =>
    intro lo hi h e he
    simp only [GlyphTree.ordered, Bool.and_eq_true, decide_eq_true_eq] at h
    obtain ⟨⟨⟨h1, h2⟩, h3⟩, h4⟩ := h
    have hk : ∀ h, hi = some h → k < h := by
      intro x hx
      rw [hx] at h2
      simpa using h2
    rw [GlyphTree.toList, List.mem_append, List.mem_cons] at he
    rcases he with he | he | he
    · obtain ⟨a, b⟩ := ihl h3 e he
      have b := b k rfl
      exact ⟨a, fun x hx => Nat.lt_trans b (hk x hx)⟩
    · rw [he]
      exact ⟨h1, hk⟩
    · obtain ⟨a, b⟩ := ihr h4 e he
      exact ⟨Nat.lt_trans h1 a, b⟩

/-- An ordered tree holds exactly its entries. -/
theorem tree_get {t : GlyphTree} : ∀ {lo hi}, t.ordered lo hi = true → ∀ k v, t.get k = some v ↔ (k, v) ∈ t.toList := by
  induction t with
  | nil => intro _ _ _ k v; simp [GlyphTree.get, GlyphTree.toList]
  | node l k' v' r ihl ihr =>
    intro lo hi h k v
    simp only [GlyphTree.ordered, Bool.and_eq_true, decide_eq_true_eq] at h
    obtain ⟨⟨⟨h1, h2⟩, h3⟩, h4⟩ := h
    have bl := ordered_bounds h3
    have br := ordered_bounds h4
    rw [GlyphTree.get, GlyphTree.toList, List.mem_append, List.mem_cons]
    split
    · rename_i e
      subst e
      constructor
      · intro h; injection h with h; subst h; exact Or.inr (Or.inl rfl)
      · rintro (h | h | h)
        · exact absurd ((bl _ h).2 _ rfl) (Nat.lt_irrefl _)
        · injection h with _ h; rw [h]
        · exact absurd (br _ h).1 (Nat.lt_irrefl _)
    · rename_i hne
      split
      · rename_i hlt
        rw [ihl h3]
        constructor
        · exact Or.inl
        · rintro (h | h | h)
          · exact h
          · injection h with h _; exact absurd h hne
          · exact absurd (br _ h).1 (by dsimp only; omega)
      · rw [ihr h4]
        constructor
        · exact fun h => Or.inr (Or.inr h)
        · rintro (h | h | h)
          · exact absurd ((bl _ h).2 _ rfl) (by dsimp only; omega)
          · injection h with h _; exact absurd h hne
          · exact h

theorem agl_ordered : aglTree.ordered 0 none = true := by decide +kernel

theorem zapf_ordered : zapfTree.ordered 0 none = true := by decide +kernel

/-- Names which spell code points: `uni` or `u` and hexadecimal digits. -/
def spells (n : Bytes) : Bool :=
  (n.take 3 == b!"uni" && (n.drop 3).all (fun c => (hexVal? c).isSome)) ||
  (n.take 1 == b!"u" && 4 ≤ (n.drop 1).length && (n.drop 1).all (fun c => (hexVal? c).isSome))

theorem agl_spells : aglTree.toList.all (fun e => e.1 < 256 ^ 64 && !spells (keyName 64 e.1 [])) = true := by decide +kernel

theorem zapf_spells : zapfTree.toList.all (fun e => e.1 < 256 ^ 64 && !spells (keyName 64 e.1 [])) = true := by decide +kernel

theorem nameKey_ge (n : Bytes) : ∀ k, k * 256 ^ n.length ≤ n.foldl (fun k c => k * 256 + c.toNat) k := by
  induction n with
  | nil => intro k; simp
  | cons c n ih =>
    intro k
    rw [List.foldl_cons, List.length_cons, Nat.pow_succ]
    refine Nat.le_trans ?_ (ih _)
    rw [Nat.mul_comm (256 ^ n.length) 256, ← Nat.mul_assoc]
    exact Nat.mul_le_mul_right _ (by omega)

theorem spells_none {t : GlyphTree} (h1 : t.ordered 0 none = true)
    (h2 : t.toList.all (fun e => e.1 < 256 ^ 64 && !spells (keyName 64 e.1 [])) = true) {n : Bytes} (h : spells n = true) :
    t.get (nameKey n) = none := by
  cases hg : t.get (nameKey n) with
  | none => rfl
  | some v =>
    have hm := (tree_get h1 _ _).mp hg
    have := List.all_eq_true.mp h2 _ hm
    simp only [Bool.and_eq_true, decide_eq_true_eq, Bool.not_eq_true'] at this
    obtain ⟨a, b⟩ := this
    have hl : n.length ≤ 64 := by
      apply Decidable.byContradiction
      intro hlt
      have := nameKey_ge n 1
      have h3 : 256 ^ 64 ≤ 256 ^ n.length := Nat.pow_le_pow_right (by omega) (by omega)
      unfold nameKey at a
      omega
    rw [keyName_key n 64 hl, h] at b
    cases b

end PdfReader
