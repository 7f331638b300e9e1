/-
  Files written encrypted.
-/
import Verif.Lemmas.Sealed

namespace PdfReader

open Spec

/-! ### From what is written to what is meant -/

section
variable {decoded : List (Bytes × Obj) → Bytes → Bytes → Prop} {written : Nat → Nat → Obj → Obj → Prop} {file : Bytes} {k : Nat} {revs : List Revision} {W content : Content}

theorem objText_stored (hint : ∀ n g (i : Int), W n g = some (.int i) → content n g = some (.int i)) {n g : Nat} {w : Obj} {t : Bytes}
    (h : ObjText file revs W n g w t) : ObjText file revs content n g w t := by
  rcases h with h | ⟨ln, lg, len, off, t', rest, h1, h2, h3⟩
  · exact Or.inl h
  · exact Or.inr ⟨ln, lg, len, off, t', rest, h1, hint _ _ _ h2, h3⟩

theorem defines_plain {n g : Nat} {o : Obj} {defs} (hn : NoPack o) (h : Defines decoded n g o defs) : defs = [((n, g), o)] := by
  cases h with
  | plain _ _ => rfl
  | pack first d raw dir rest ms os h1 => exact absurd (by simp) (hn d raw _ rfl h1)

theorem body_stored (hnone : ∀ n g, content n g = none → W n g = none)
    (hst : ∀ n g o w, content n g = some o → W n g = some w → written n g o w ∧ NoPack o ∧ NoPack w)
    (hint : ∀ n g (i : Int), W n g = some (.int i) → content n g = some (.int i)) {es : List (List ((Nat × Nat) × Obj))} {body : Bytes}
    (h : FileBody decoded AsIs file revs W es body) : ∃ es', FileBody decoded written file revs content es' body ∧
      ∀ n g, (∃ e ∈ es, ∃ w, ((n, g), w) ∈ e) → ∃ e ∈ es', ∃ o, content n g = some o ∧ ((n, g), o) ∈ e := by
  induction h with
  | nil => exact ⟨[], .nil, fun n g h => by obtain ⟨e, he, _⟩ := h; cases he⟩
  | obj n g o w defs es s t u hs ht hw ho hd _ ih =>
    obtain ⟨es', h1, h2⟩ := ih
    cases hw
    cases hc : content n g with
    | none => rw [hnone n g hc] at ho; cases ho
    | some o' =>
      obtain ⟨k1, k2, k3⟩ := hst n g o' o hc ho
      refine ⟨_, .obj n g o' o _ es' s t u hs (objText_stored hint ht) k1 hc (.plain o' k2) h1, fun n' g' h => ?_⟩
      obtain ⟨e, he, w, hw⟩ := h
      rcases List.mem_cons.mp he with rfl | he
      · rw [defines_plain k3 hd, List.mem_singleton] at hw
        cases hw
        exact ⟨_, List.mem_cons_self, o', hc, List.mem_singleton.mpr rfl⟩
      · obtain ⟨e', he', x, hx⟩ := h2 n' g' ⟨e, he, w, hw⟩
        exact ⟨e', List.mem_cons_of_mem _ he', x, hx⟩
  | startxref es s s₁ ds u h1 h2 h3 h4 h5 _ ih =>
    obtain ⟨es', i1, i2⟩ := ih
    exact ⟨es', .startxref es' s s₁ ds u h1 h2 h3 h4 h5 i1, i2⟩

/-- If the objects are written as `W` says, and this is how `content` is stored, then the file holds `content`. -/
theorem holds_stored (hc : Spec.Holds decoded AsIs file k revs W) (hnone : ∀ n g, content n g = none ↔ W n g = none)
    (hst : ∀ n g o w, content n g = some o → W n g = some w → written n g o w ∧ NoPack o ∧ NoPack w)
    (hint : ∀ n g (i : Int), W n g = some (.int i) → content n g = some (.int i)) (hown : ∀ r ∈ revs, r.own = none) :
    Spec.Holds decoded written file k revs content := by
  obtain ⟨es, body, tail, hf, hb, hin⟩ := hc.body
  obtain ⟨es', hb', hes⟩ := body_stored (fun n g => (hnone n g).mp) hst hint hb
  refine ⟨⟨es', body, tail, hf, hb', fun n g o ho => ?_⟩, ?_, fun n g o defs ho hd d hdm => ?_, fun r hr n g v o h => by rw [hown r hr] at h; cases h⟩
  · cases hw : W n g with
    | none => rw [(hnone n g).mpr hw] at ho; cases ho
    | some w =>
      obtain ⟨k1, k2, k3⟩ := hst n g o w ho hw
      rcases hin n g w hw with ⟨off, t, rest, w', defs, c1, c2, c3, c4, c5⟩ | ⟨c1, e, he, hm⟩
      · cases c4
        exact Or.inl ⟨off, t, rest, w, _, c1, c2, objText_stored hint c3, k1, .plain o k2⟩
      · refine Or.inr ⟨c1, ?_⟩
        obtain ⟨e', he', o', ho', hm'⟩ := hes n g ⟨e, he, w, hm⟩
        rw [ho] at ho'
        cases ho'
        exact ⟨e', he', hm'⟩
  · obtain ⟨all, hall⟩ := hc.finite
    exact ⟨all, fun n g h => hall n g fun e => h ((hnone n g).mpr e)⟩
  · cases hw : W n g with
    | none => rw [(hnone n g).mpr hw] at ho; cases ho
    | some w =>
      rw [defines_plain (hst n g o w ho hw).2.1 hd, List.mem_singleton] at hdm
      subst hdm
      exact ho
end

/-! ### Encrypting -/

theorem blocks_flatten : ∀ (n : Nat) (data : Bytes), data.length ≤ n → (blocksOf n data).flatten = data
  | 0, data, h => by
    rw [List.length_eq_zero_iff.mp (Nat.le_zero.mp h)]
    rfl
  | n + 1, data, h => by
    unfold blocksOf
    split
    · rename_i e; rw [e]; rfl
    · rename_i e
      have : 0 < data.length := List.length_pos_iff.mpr e
      rw [List.flatten_cons, blocks_flatten n _ (by rw [List.length_drop]; omega), List.take_append_drop]

theorem blocks_length : ∀ (n : Nat) (data : Bytes), data.length % 16 = 0 → ∀ b ∈ blocksOf n data, b.length = 16
  | 0, data, _, b, hb => by cases hb
  | n + 1, data, h, b, hb => by
    unfold blocksOf at hb
    split at hb
    · cases hb
    · rename_i e
      have : 0 < data.length := List.length_pos_iff.mpr e
      rcases List.mem_cons.mp hb with rfl | hb
      · rw [List.length_take]; omega
      · exact blocks_length n _ (by rw [List.length_drop]; omega) b hb

theorem pkcs_length (data : Bytes) : (data ++ pkcs data).length = data.length + (16 - data.length % 16) := by
  rw [List.length_append]
  unfold pkcs
  rw [List.length_replicate]

theorem seal_sealed (X : Ciphers) (key : Bytes) (m : Method) (iv : Bytes) (hiv : iv.length = 16) (n g : Nat) (data : Bytes) :
    Sealed X key n g m data (sealData X key m iv n g data) := by
  have h1 : (blocksOf (data.length + 16) (data ++ pkcs data)).flatten = data ++ pkcs data := blocks_flatten _ _ (by rw [pkcs_length]; omega)
  have h2 : ∀ b ∈ blocksOf (data.length + 16) (data ++ pkcs data), b.length = 16 := blocks_length _ _ (by rw [pkcs_length]; omega)
  cases m with
  | rc4 => exact .rc4 data
  | aes128 => exact .aes128 data iv _ hiv h2 h1
  | aes256 => exact .aes256 data iv _ hiv h2 h1
  | identity => exact .identity data

theorem dictSet_twice (k : Bytes) (v w : Obj) : ∀ es : List (Bytes × Obj), dictSet (dictSet es k v) k w = dictSet es k w
  | [] => by simp [dictSet]
  | (k', v') :: es => by
    by_cases h : k' = k
    · simp [dictSet, h]
    · simp [dictSet, h, dictSet_twice k v w es]

theorem dictGet_set_other {k k' : Bytes} (h : k' ≠ k) (v : Obj) : ∀ es : List (Bytes × Obj), dictGet (dictSet es k v) k' = dictGet es k'
  | [] => by
    unfold dictSet dictGet
    rw [if_neg (fun e => h e.symm)]
    rfl
  | (k1, v1) :: es => by
    unfold dictSet
    split
    · rename_i e
      unfold dictGet
      rw [if_neg (fun e => h e.symm), if_neg (fun e' : k1 = k' => h (e'.symm.trans e))]
    · unfold dictGet
      rw [dictGet_set_other h v es]

theorem covered_set {d es : List (Bytes × Obj)} (v : Obj) (h : Covered d es) : Covered d (dictSet es b!"Length" v) := by
  unfold Covered at h ⊢
  rw [dictGet_set_other (by decide)]
  exact h

theorem seal_stored {X : Ciphers} {key : Bytes} {m : Method} {iv : Bytes} {n g : Nat} {d : List (Bytes × Obj)} {o : Obj} (hiv : iv.length = 16) (hm : MethodIs d m)
    (hcov : ∀ es data, o = .stream es data → Covered d es) (hstr : (∀ s, o ≠ .str s) ∧ ∀ s, o ≠ .hex s) (hn : n < 4294967296) (hg : g < 4294967296) :
    Stored X key d n g (openedObj m o) (sealObj X key m iv n g o) := by
  cases o with
  | stream es data =>
    have := Stored.stream (X := X) (key := key) (d := d) (n := n) (g := g) (dictSet es b!"Length" (.int (sealData X key m iv n g data).length)) m data _
      (covered_set _ (hcov es data rfl)) hm (seal_sealed X key m iv hiv n g data) hn hg
    rw [dictSet_twice] at this
    exact this
  | str s => exact absurd rfl (hstr.1 s)
  | hex s => exact absurd rfl (hstr.2 s)
  | _ => exact .other _ (fun es data e => by cases e) (fun s e => by cases e) (fun s e => by cases e)

theorem keys_dictSet {k : Bytes} {v : Obj} : ∀ {es : List (Bytes × Obj)}, k ∈ es.map (·.1) → (dictSet es k v).map (·.1) = es.map (·.1)
  | [], h => by cases h
  | (k', v') :: es, h => by
    unfold dictSet
    split
    · rename_i e; rw [List.map_cons, List.map_cons, e]
    · rename_i e
      rcases List.mem_cons.mp h with h | h
      · exact absurd h.symm e
      · rw [List.map_cons, List.map_cons, keys_dictSet h]

theorem writable_dictSet {k : Bytes} {n : Int} : ∀ {es : List (Bytes × Obj)}, WritableEnts es → WritableEnts (dictSet es k (.int n))
  | [], _ => ⟨trivial, trivial⟩
  | (k', v') :: es, h => by
    unfold dictSet
    split
    · exact ⟨trivial, h.2⟩
    · exact ⟨h.1, writable_dictSet h.2⟩

theorem mem_dictSet {k : Bytes} {v : Obj} : ∀ {es : List (Bytes × Obj)}, (k, v) ∈ dictSet es k v
  | [] => List.mem_singleton.mpr rfl
  | (k', v') :: es => by
    unfold dictSet
    split
    · exact List.mem_cons_self
    · exact List.mem_cons_of_mem _ mem_dictSet

theorem mem_dictSet_other {k k' : Bytes} {v v' : Obj} (h : k' ≠ k) : ∀ {es : List (Bytes × Obj)}, (k', v') ∈ dictSet es k v → (k', v') ∈ es
  | [], hm => by
    rw [show dictSet [] k v = [(k, v)] from rfl, List.mem_singleton] at hm
    cases hm
    exact absurd rfl h
  | (k1, v1) :: es, hm => by
    unfold dictSet at hm
    split at hm
    · rcases List.mem_cons.mp hm with e | hm
      · cases e; exact absurd rfl h
      · exact List.mem_cons_of_mem _ hm
    · rcases List.mem_cons.mp hm with e | hm
      · rw [e]; exact List.mem_cons_self
      · exact List.mem_cons_of_mem _ (mem_dictSet_other h hm)

theorem seal_writable {X : Ciphers} {key : Bytes} {m : Method} {iv : Bytes} {n g : Nat} {o : Obj} (h : WritableValue o) : WritableValue (sealObj X key m iv n g o) := by
  cases o with
  | stream es data =>
    obtain ⟨h1, h2, h3⟩ := h
    refine ⟨?_, writable_dictSet h2, mem_dictSet⟩
    rw [keys_dictSet (List.mem_map.mpr ⟨_, h3, rfl⟩)]
    exact h1
  | _ => exact h

variable {X : Ciphers} {key : Bytes} {m : Method} {iv : Nat → Nat → Bytes}

theorem seal_ok {d : Draft} (h : d.Ok) : (d.seal X key m iv).Ok where
  nonempty := by
    unfold Draft.seal
    simpa using h.nonempty
  vals := by
    intro i hi
    obtain ⟨j, hj, rfl⟩ := List.mem_map.mp hi
    exact seal_writable (h.vals j hj)
  plain := by
    intro i hi e data he v hv
    obtain ⟨j, hj, rfl⟩ := List.mem_map.mp hi
    dsimp only at he
    cases hval : j.val with
    | stream es data' =>
      rw [hval] at he
      cases he
      exact h.plain j hj es data' hval v (mem_dictSet_other (by decide) hv)
    | _ => rw [hval] at he; cases he
  nums := by
    show ((d.items.map _).map _).Nodup
    rw [List.map_map]
    exact h.nums
  gens := by
    intro i hi
    obtain ⟨j, hj, rfl⟩ := List.mem_map.mp hi
    exact h.gens j hj
  keys := h.keys
  ents := h.ents
  noPrev := h.noPrev

theorem find_map {α β : Type} (f : α → β) (p : β → Bool) (q : α → Bool) (h : ∀ a, p (f a) = q a) : ∀ l : List α, (l.map f).find? p = (l.find? q).map f
  | [] => rfl
  | a :: l => by
    rw [List.map_cons]
    by_cases e : q a = true
    · rw [List.find?_cons_of_pos (by rw [h]; exact e), List.find?_cons_of_pos e]
      rfl
    · rw [List.find?_cons_of_neg (by rw [h]; exact e), List.find?_cons_of_neg e]
      exact find_map f p q h l

theorem content_seal (ds : List Draft) (n g : Nat) :
    contentOf (ds.map (Draft.seal X key m iv)) n g = (contentOf ds n g).map (sealObj X key m (iv n g) n g) := by
  unfold contentOf
  rw [← List.map_reverse]
  generalize ds.reverse = l
  induction l with
  | nil => rfl
  | cons d l ih =>
    rw [List.map_cons, List.findSome?_cons, List.findSome?_cons]
    have e : (Draft.seal X key m iv d).items.find? (fun i => i.num == n && i.gen == g) =
        (d.items.find? (fun i => i.num == n && i.gen == g)).map fun i => ⟨i.num, i.gen, sealObj X key m (iv i.num i.gen) i.num i.gen i.val⟩ :=
      find_map _ _ _ (fun _ => rfl) d.items
    rw [e]
    cases hf : d.items.find? (fun i => i.num == n && i.gen == g) with
    | none => exact ih
    | some i =>
      have := List.find?_some hf
      simp only [Bool.and_eq_true, beq_iff_eq] at this
      obtain ⟨rfl, rfl⟩ := this
      rfl

theorem content_mem {ds : List Draft} {n g : Nat} {o : Obj} (h : contentOf ds n g = some o) : ∃ d ∈ ds, ∃ i ∈ d.items, i.num = n ∧ i.gen = g ∧ i.val = o := by
  unfold contentOf at h
  obtain ⟨d, hd, e⟩ := List.exists_of_findSome?_eq_some h
  cases hf : d.items.find? (fun i => i.num == n && i.gen == g) with
  | none => rw [hf] at e; cases e
  | some i =>
    rw [hf] at e
    cases e
    have := List.find?_some hf
    simp only [Bool.and_eq_true, beq_iff_eq] at this
    exact ⟨d, List.mem_reverse.mp hd, i, List.mem_of_find?_eq_some hf, this.1, this.2, rfl⟩

theorem revs_own (ds : List Draft) : ∀ (start : Nat) (prev : Option Nat), ∀ r ∈ revsOf start prev ds, r.own = none := by
  induction ds with
  | nil => intro start prev r hr; cases hr
  | cons d ds ih =>
    intro start prev r hr
    rw [revsOf] at hr
    rcases List.mem_append.mp hr with hr | hr
    · exact ih _ _ r hr
    · rw [List.mem_singleton] at hr
      subst hr
      rfl

theorem opened_noPack {o : Obj} (h : NoPack o) : NoPack (openedObj m o) := by
  cases o with
  | stream es data =>
    intro d raw v e hv
    cases e
    rw [dictGet_set_other (by decide)] at hv
    exact h es data v rfl hv
  | _ => exact fun d raw v e => by cases e

theorem seal_noPack {iv : Bytes} {n g : Nat} {o : Obj} (h : NoPack o) : NoPack (sealObj X key m iv n g o) := by
  cases o with
  | stream es data =>
    intro d raw v e hv
    cases e
    rw [dictGet_set_other (by decide)] at hv
    exact h es data v rfl hv
  | _ => exact fun d raw v e => by cases e

/-- What a file written encrypted holds. -/
theorem holds_sealed {decoded : List (Bytes × Obj) → Bytes → Bytes → Prop} (ds : List Draft) (hok : ∀ d ∈ ds, d.Ok) {d : List (Bytes × Obj)} (hm : MethodIs d m)
    (hse : ∀ dr ∈ ds, dr.Sealable d) (hiv : ∀ n g, (iv n g).length = 16) :
    Spec.Holds decoded (Stored X key d) (writeFile (ds.map (Draft.seal X key m iv))) 0 (revsOf fileHeader.length none (ds.map (Draft.seal X key m iv)))
      (fun n g => (contentOf ds n g).map (openedObj m)) := by
  have hok' : ∀ d ∈ ds.map (Draft.seal X key m iv), d.Ok := by
    intro d hd
    obtain ⟨d', hd', rfl⟩ := List.mem_map.mp hd
    exact seal_ok (hok d' hd')
  refine holds_stored (holds_of _ hok') (fun n g => ?_) (fun n g o w ho hw => ?_) (fun n g i hi => ?_) (revs_own _ _ _)
  · rw [content_seal]
    cases contentOf ds n g <;> simp
  · rw [content_seal] at hw
    cases hc : contentOf ds n g with
    | none => rw [hc] at hw; cases hw
    | some x =>
      rw [hc] at ho hw
      cases ho
      cases hw
      obtain ⟨dr, hdr, i, hi, rfl, rfl, rfl⟩ := content_mem hc
      have hnp : NoPack i.val := item_noPack (hok dr hdr) hi
      exact ⟨seal_stored (hiv _ _) hm ((hse dr hdr).streams i hi) ((hse dr hdr).strings i hi) ((hse dr hdr).nums i hi) (by have := (hok dr hdr).gens i hi; omega),
        opened_noPack hnp, seal_noPack hnp⟩
  · rw [content_seal] at hi
    cases hc : contentOf ds n g with
    | none => rw [hc] at hi; cases hi
    | some x =>
      rw [hc] at hi
      cases x <;> first | (cases hi; done) | (cases hi; rfl)

/-- Whatever is in a file written with tables is listed. -/
theorem content_current (ds : List Draft) (hok : ∀ d ∈ ds, d.Ok) {n g : Nat} {o : Obj} (h : contentOf ds n g = some o) :
    ∃ off, CurrentAt (revsOf fileHeader.length none ds) n g off := by
  obtain ⟨off, _, _, _, h1, _⟩ := content_at ds fileHeader.length none (file := writeFile ds) fileHeader [] n g o hok (by unfold writeFile; simp) rfl h
  exact ⟨off, h1⟩

end PdfReader
