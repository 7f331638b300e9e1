/-
  C120: damaged data of streams.
-/
import Verif.Model.FaxFilter
import Verif.Spec.Objects
import Verif.Props.Filters

namespace PdfReader
open Spec

variable {inflate : Bytes → Option Bytes}

/-- The filters for texts and the compressions but LZW, by their names and abbreviations. -/
def tolerant : List Bytes := [b!"ASCII85Decode", b!"A85", b!"ASCIIHexDecode", b!"AHx", b!"FlateDecode", b!"Fl", b!"RunLengthDecode", b!"RL"]

/-- No prediction, or one of the PNG predictions with the number of columns. -/
def Predicts (ps : List (Bytes × Obj)) : Prop :=
  dictGet ps b!"Predictor" = none ∨ dictGet ps b!"Predictor" = some (.int 1) ∨
    ∃ p : Int, 10 ≤ p ∧ p ≤ 15 ∧ dictGet ps b!"Predictor" = some (.int p) ∧ ∃ w : Nat, dictGet ps b!"Columns" = some (.int w)

theorem predicts_ok {ps : List (Bytes × Obj)} (h : Predicts ps) (d : Bytes) :
    ∃ out, removePredictorsP d (.dict (intParam ps b!"Predictor") (intParam ps b!"Columns")) = .ok out := by
  unfold intParam removePredictorsP removePredictors
  rcases h with e | e | ⟨p, h1, h2, e, w, e'⟩
  · rw [e]; exact ⟨d, rfl⟩
  · rw [e]; exact ⟨d, rfl⟩
  · rw [e, e']
    dsimp only [Option.getD_some]
    rw [if_neg (by omega), if_neg (by omega), if_pos ⟨h1, h2⟩, if_neg (by omega), if_neg (by omega)]
    exact ⟨_, rfl⟩

theorem tolerant_ok (x : Ext) {ps : Params} (hp : ∀ d, ∃ out, removePredictorsP d ps = .ok out) {n : Bytes} (hn : n ∈ tolerant) (data : Bytes) :
    ∃ out, applyFilter x n data ps = .ok out := by
  have hfl : ∃ out, flateDecode x.inflate data ps = .ok out := by
    unfold flateDecode
    cases x.inflate data with
    | none => exact ⟨_, rfl⟩
    | some d => exact hp d
  simp only [tolerant, List.mem_cons, List.not_mem_nil, or_false] at hn
  rcases hn with rfl | rfl | rfl | rfl | rfl | rfl | rfl | rfl
  · exact ⟨_, rfl⟩
  · exact ⟨_, rfl⟩
  · exact ⟨_, rfl⟩
  · exact ⟨_, rfl⟩
  · exact hfl
  · exact hfl
  · exact ⟨_, rfl⟩
  · exact ⟨_, rfl⟩

theorem filters_ok (x : Ext) {ps : Params} (hp : ∀ d, ∃ out, removePredictorsP d ps = .ok out) :
    ∀ (ns : List Bytes) (data : Bytes), (∀ n ∈ ns, n ∈ tolerant) → ∃ out, applyFilters x ps ns data = .ok out
  | [], data, _ => ⟨data, rfl⟩
  | n :: ns, data, h => by
    obtain ⟨d, e⟩ := tolerant_ok x hp (h n List.mem_cons_self) data
    obtain ⟨out, e'⟩ := filters_ok x hp ns d fun m hm => h m (List.mem_cons_of_mem _ hm)
    exact ⟨out, by unfold applyFilters; rw [e]; exact e'⟩

/-- C120 as far as it holds: with filters for texts, FlateDecode and RunLengthDecode, in any number, whatever the data are, decoding a stream raises
nothing. Missing: LZWDecode and CCITTFaxDecode (below). -/
theorem C120_damaged_partial (d : List (Bytes × Obj)) (ns : List Bytes) (hn : ∀ n ∈ ns, n ∈ tolerant)
    (hf : dictGet d b!"Filter" = some (.arr (ns.map Obj.name)) ∨ ∃ n, ns = [n] ∧ dictGet d b!"Filter" = some (.name n))
    (hp : NoEntry d b!"DecodeParms" ∨ ∃ ps, dictGet d b!"DecodeParms" = some (.dict ps) ∧ Predicts ps) (data : Bytes) :
    ∃ out, fileData inflate d data = .ok out := by
  have hpar : ∀ b, ∃ out, removePredictorsP b (paramsEntry (dictGet d b!"DecodeParms")) = .ok out := by
    intro b
    rcases hp with (e | e) | ⟨ps, e, h⟩
    · rw [e]; exact ⟨b, rfl⟩
    · rw [e]; exact ⟨b, rfl⟩
    · rw [e]; exact predicts_ok h b
  have hn' : ∀ ns : List Bytes, namesOf (ns.map Obj.name) = some ns := by
    intro ns
    induction ns with
    | nil => rfl
    | cons n ns ih => show (namesOf (ns.map Obj.name)).map (n :: ·) = _; rw [ih]; rfl
  unfold fileData streamData
  rcases hf with e | ⟨n, rfl, e⟩
  · rw [e]
    unfold filterEntry
    dsimp only
    rw [hn']
    cases ns with
    | nil => exact ⟨data, rfl⟩
    | cons n ns => exact filters_ok _ hpar (n :: ns) data hn
  · rw [e]
    have : filterEntry (some (.name n)) = .name n := by
      unfold filterEntry
      dsimp only
      rw [if_neg]
      rintro rfl
      exact absurd (hn [] List.mem_cons_self) (by decide)
    rw [this]
    exact filters_ok _ hpar [n] data hn

/-- C120, what is delivered: a stream which zlib refuses is empty, whatever the parameters are. -/
theorem C120_empty_partial (d : List (Bytes × Obj)) (data : Bytes) (hf : dictGet d b!"Filter" = some (.name b!"FlateDecode") ∨ dictGet d b!"Filter" = some (.arr [.name b!"FlateDecode"]))
    (hz : inflate data = none) : fileData inflate d data = .ok [] := by
  unfold fileData streamData
  have hfl : ∀ ps, flateDecode inflate data ps = .ok [] := by
    intro ps
    unfold flateDecode
    rw [hz]
  rcases hf with e | e <;> rw [e]
  · show (match flateDecode inflate data _ with | .error e => (.error e : Res Bytes) | .ok d => .ok d) = _
    rw [hfl]
  · show (match flateDecode inflate data _ with | .error e => (.error e : Res Bytes) | .ok d => .ok d) = _
    rw [hfl]

theorem lzwCodes_fails (ds : LzwDec) : ∀ (cs : List Nat) (e : Exc), lzwCodes ds cs = .error e → e = .valueError ∨ e = .typeError := by
  intro cs
  induction cs generalizing ds with
  | nil => intro e h; cases h
  | cons c cs ih =>
    intro e h
    unfold lzwCodes at h
    cases hs : lzwStep ds c with
    | error e' =>
      rw [hs] at h
      cases h
      unfold lzwStep at hs
      split at hs
      · cases hs
      · split at hs
        · cases hs; exact Or.inl rfl
        · split at hs
          · cases hs
          · split at hs
            · cases hs; exact Or.inr rfl
            · cases hs
    | ok p =>
      rw [hs] at h
      dsimp only at h
      cases hr : lzwCodes p.1 cs with
      | error e' => rw [hr] at h; cases h; exact ih _ _ hr
      | ok r => rw [hr] at h; cases h

/-- C120 for LZWDecode: decoding gives data or raises a TypeError, nothing else. -/
theorem C120_lzw_partial (d : List (Bytes × Obj)) (data : Bytes) (hf : dictGet d b!"Filter" = some (.name b!"LZWDecode")) (hp : NoEntry d b!"DecodeParms") :
    (∃ out, fileData inflate d data = .ok out) ∨ fileData inflate d data = .error .typeError := by
  have hpar : paramsEntry (dictGet d b!"DecodeParms") = .dict none none := by rcases hp with e | e <;> rw [e] <;> rfl
  unfold fileData streamData
  rw [hf, hpar]
  show (∃ out, (match lzwDecode data (.dict none none) with | .error e => (.error e : Res Bytes) | .ok d => .ok d) = .ok out) ∨
    (match lzwDecode data (.dict none none) with | .error e => (.error e : Res Bytes) | .ok d => .ok d) = _
  unfold lzwDecode
  cases h : lzwDecompress data with
  | ok b => exact Or.inl ⟨b, rfl⟩
  | error e =>
    rcases lzwCodes_fails {} _ e h with rfl | rfl
    · exact Or.inl ⟨[], rfl⟩
    · exact Or.inr rfl

/-- C120 is false for LZWDecode: data which start with a code that is not yet defined raise TypeError. -/
theorem C120_lzw_counterexample : fileData inflate [(b!"Filter", .name b!"LZWDecode")] [0xFF, 0xFF] = .error .typeError := by
  show (match lzwDecode [0xFF, 0xFF] (.dict none none) with | .error e => (.error e : Res Bytes) | .ok d => .ok d) = _
  rw [show lzwDecode [0xFF, 0xFF] (.dict none none) = .error .typeError by decide +kernel]

/-- C120 is false for facsimiles: data which are no codes raise an exception. -/
theorem C120_fax_counterexample : ∃ d data e, dictGet d b!"Filter" = some (.name b!"CCITTFaxDecode") ∧ fileData (fun _ => none) d data = .error e :=
  ⟨[(b!"Filter", .name b!"CCITTFaxDecode"), (b!"DecodeParms", .dict [(b!"K", .int (-1)), (b!"Columns", .int 8)])], [0, 0, 0], .valueError, rfl, by decide +kernel⟩

/-- C120 is false for predictors which are not there: TIFF prediction raises ValueError for all data which zlib accepts. -/
theorem C120_tiff_counterexample (d ps : List (Bytes × Obj)) (data raw : Bytes) (hf : dictGet d b!"Filter" = some (.name b!"FlateDecode"))
    (hp : dictGet d b!"DecodeParms" = some (.dict ps)) (h2 : dictGet ps b!"Predictor" = some (.int 2)) (hz : inflate data = some raw) :
    fileData inflate d data = .error .valueError := by
  unfold fileData streamData
  rw [hf, hp]
  show (match flateDecode inflate data (.dict (intParam ps b!"Predictor") (intParam ps b!"Columns")) with | .error e => (.error e : Res Bytes) | .ok d => .ok d) = _
  unfold flateDecode
  rw [hz]
  have : removePredictorsP raw (.dict (intParam ps b!"Predictor") (intParam ps b!"Columns")) = .error .valueError := by
    unfold intParam removePredictorsP removePredictors
    rw [h2]
    rfl
  dsimp only
  rw [this]

/-- The hypotheses of C120 are met: a text in two layers, with letters which are no digits. -/
example : ∃ out, fileData inflate [(b!"Filter", .arr [.name b!"AHx", .name b!"Fl"])] b!"xyz" = .ok out :=
  C120_damaged_partial _ [b!"AHx", b!"Fl"] (by decide) (Or.inl rfl) (Or.inl (Or.inl rfl)) _

example : Predicts [(b!"Predictor", .int 12), (b!"Columns", .int 5)] := Or.inr (Or.inr ⟨12, by decide, by decide, rfl, 5, rfl⟩)

end PdfReader
