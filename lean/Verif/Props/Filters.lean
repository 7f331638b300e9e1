/-
  C01–C06: stream filters.
-/
import Verif.Lemmas.Lzw

namespace PdfReader
open Spec

/-! ### C01 -/

/-- C01. Any hexadecimal text of `d`, ended by `>` (and anything after it) or by the end of the
stream, decodes to `d`. -/
theorem C01_asciihex_decodes (d t tl : Bytes) (h : HexEnc d t) (hend : tl = [] ∨ ∃ r, tl = 62 :: r) :
    asciiHexDecode (t ++ tl) = d := by
  have key := ahx_enc h tl
  rcases hend with rfl | ⟨r, rfl⟩
  · simpa [asciiHexDecode, ahxLoop] using key
  · simpa [asciiHexDecode, ahx_end] using key

/-- C01, odd number of digits: the last digit counts as followed by 0, whether `>` (and anything) or
the end of the stream follows. -/
theorem C01_asciihex_odd (d t w₁ w₂ : Bytes) (v : Nat) (x : Byte) (tl : Bytes)
    (h : HexEnc d t) (h1 : Blank w₁) (h2 : Blank w₂) (hx : HexDigit v x) (hend : tl = [] ∨ ∃ r, tl = 62 :: r) :
    asciiHexDecode (t ++ (w₁ ++ x :: (w₂ ++ tl))) = d ++ [UInt8.ofNat (16 * v)] := by
  have hx := hexDigit_val hx
  have h3 := hexVal_ne_vt hx
  unfold asciiHexDecode
  rw [ahx_enc h, ahxLoop_blank none h1, ahxLoop_first hx, ahxLoop_blank _ h2]
  rcases hend with rfl | ⟨r, rfl⟩
  · simp [ahxLoop, fromHex2, h3, hx, show hexVal? 48 = some 0 by decide]
  · simp [ahxLoop, show isWs 62 = false by decide, fromHex2, h3, hx, show hexVal? 48 = some 0 by decide]

/-- Premises of C01 are satisfiable: `"64\n6A>"` with mixed case and blanks. -/
example : HexEnc [100, 106] (b!"6 4" ++ [10] ++ b!"6a ") :=
  .cons 100 54 52 [] [32] [106] _ (by simp [Blank]) (by simp [Blank]) (by simp [HexDigit]) (by simp [HexDigit])
    (.cons 106 54 97 [10] [] [] _ (by simp [Blank]) (by simp [Blank]) (by simp [HexDigit]) (by simp [HexDigit])
      (.nil [32] (by simp [Blank])))
example : asciiHexDecode b!"6 4 6a > trailer" = [100, 106] := by decide +kernel

/-! ### C02 -/

/-- C02. Whatever white space is inserted into a base-85 text of `d` with its EOD mark (also inside
the mark), decoding gives `d`. -/
theorem C02_ascii85_decodes (d t s : Bytes) (h : A85Enc d t)
    (hs : s.filter (fun c => !(([0, 9, 10, 12, 13, 32] : Bytes).contains c)) = t ++ [126, 62]) :
    ascii85Decode s = d := by
  have hf : (fun c : Byte => !isWs c) = (fun c => !(([0, 9, 10, 12, 13, 32] : Bytes).contains c)) := by
    funext c
    exact forall_u8 (fun c => (!isWs c) = (!(([0, 9, 10, 12, 13, 32] : Bytes).contains c))) (by decide +kernel) c
  unfold ascii85Decode
  simp only [hf, hs]
  have hsuf : ([126, 62] : Bytes).isSuffixOf (t ++ [126, 62]) = true := by
    rw [List.isSuffixOf_iff_suffix]; exact ⟨t, rfl⟩
  rw [if_pos hsuf]
  simp [a85decode_enc h]

/-- C02, missing EOD: a stream whose non-blank characters do not end in `~>` decodes to nothing. -/
theorem C02_ascii85_no_eod (s : Bytes)
    (hs : ¬ ([126, 62] : Bytes) <:+ s.filter (fun c => !(([0, 9, 10, 12, 13, 32] : Bytes).contains c))) :
    ascii85Decode s = [] := by
  have hf : (fun c : Byte => !isWs c) = (fun c => !(([0, 9, 10, 12, 13, 32] : Bytes).contains c)) := by
    funext c
    exact forall_u8 (fun c => (!isWs c) = (!(([0, 9, 10, 12, 13, 32] : Bytes).contains c))) (by decide +kernel) c
  unfold ascii85Decode
  simp only [hf]
  rw [if_neg (by rw [List.isSuffixOf_iff_suffix]; exact hs)]

/-- Premises of C02: a full group, a zero group and a partial group. -/
example : A85Enc ([77, 97, 110, 32] ++ [0, 0, 0, 0] ++ [115, 117]) (b!"9jqo^zF*.") := by
  have h := A85Enc.group 77 97 110 32 _ _ (.zero _ _ (.last [115, 117] (by decide) (by decide)))
  have e : digits85 (beVal [77, 97, 110, 32]) ++ 122 :: (digits85 (beVal ([115, 117] ++ List.replicate (4 - [115, 117].length) 0))).take ([115, 117].length + 1)
      = b!"9jqo^zF*." := by decide +kernel
  rw [← e]; exact h
example : ascii85Decode (b!"9j qo^z F*. ~ >") = [77, 97, 110, 32, 0, 0, 0, 0, 115, 117] := by decide +kernel

/-! ### C03 -/

/-- C03. Runs followed by EOD (128) decode to the concatenation of their data. -/
theorem C03_runlength_decodes (rs : List Run) (h : ∀ r ∈ rs, r.Legal) (trailer : Bytes) :
    runLengthDecode (rs.flatMap Run.enc ++ 128 :: trailer) = rs.flatMap Run.data := by
  unfold runLengthDecode
  rw [rl_runs rs h]
  simp [rlLoop]

/-- C03, missing EOD: complete runs without EOD decode to nothing. -/
theorem C03_runlength_no_eod (rs : List Run) (h : ∀ r ∈ rs, r.Legal) :
    runLengthDecode (rs.flatMap Run.enc) = [] := by
  have := rl_runs rs h []
  unfold runLengthDecode
  rw [List.append_nil] at this
  rw [this]
  simp [rlLoop]

example : (Run.lit [1, 2, 3]).Legal ∧ (Run.rep 128 7).Legal := by simp [Run.Legal]

/-! ### C04 -/

/-- C04 (part). A legal LZW stream *without* the end-of-data code which never uses the code being
defined (no "KwKwK") decodes to its data. Missing with respect to C04: streams with EOD and KwKwK,
for which the claim is false (below). -/
theorem C04_lzw_decodes_partial (data raw : Bytes) (cs : List Nat) (bits pad : List Bool)
    (hseq : LzwSeq false [] cs data) (hpack : LzwPack 0 cs bits)
    (hraw : bits8 raw = bits ++ pad) (hpad : pad.length < 8) (cols : Option Int) :
    lzwDecode raw (.dict none cols) = .ok data := by
  have hu : unpackBits {} (bits ++ pad) = cs :=
    unpack_pack hpack {} ⟨rfl, rfl, rfl, Nat.le_refl 9, fun _ => rfl⟩ pad (by omega)
  have hd : lzwDecompress raw = .ok data := by
    unfold lzwDecompress
    rw [bytesToBits_spec, hraw, hu]
    exact lzwCodes_seq hseq {} ⟨rfl, rfl⟩
  unfold lzwDecode
  rw [hd]
  simp [removePredictorsP, removePredictors]

/-- C04 fails: every legal stream which ends with the end-of-data code decodes to the empty string
(`ValueError` swallowed by `lzw.decode`), whatever its data; TypeError for codes undefined at the start. -/
theorem C04_lzw_eod_loses_everything (raw : Bytes) (cs : List Nat) (bits pad : List Bool)
    (hpack : LzwPack 0 (cs ++ [257]) bits) (hraw : bits8 raw = bits ++ pad) (hpad : pad.length < 8) (ps : Params) :
    lzwDecode raw ps = .ok [] ∨ lzwDecode raw ps = .error .typeError := by
  have hu : unpackBits {} (bits ++ pad) = cs ++ [257] :=
    unpack_pack hpack {} ⟨rfl, rfl, rfl, Nat.le_refl 9, fun _ => rfl⟩ pad (by omega)
  unfold lzwDecode lzwDecompress
  rw [bytesToBits_spec, hraw, hu]
  rcases lzwCodes_eod cs [] {} with h | h <;> simp [h]

/-- C04 counterexample: the stream of ISO 32000-1 7.4.4.2 example (`-----A---B`). -/
theorem C04_lzw_counterexample :
    ∃ raw data cs bits pad, LzwSeq true [] cs data ∧ LzwPack 0 (cs ++ [257]) bits ∧ bits8 raw = bits ++ pad ∧
      pad.length < 8 ∧ lzwDecode raw (.dict none none) ≠ .ok data := by
  refine ⟨[0x80, 0x0B, 0x60, 0x50, 0x22, 0x0C, 0x0C, 0x85, 0x01], b!"-----A---B", [256, 45, 258, 258, 65, 259, 66],
    [256, 45, 258, 258, 65, 259, 66, 257].flatMap (bitsOf 9), [], ?_, ?_, by decide +kernel, by decide, by decide +kernel⟩
  · refine .clear _ _ _ (.byte _ _ _ 45 ?_)
    refine .self [[45]] _ (b!"--A---B") 0 [45] rfl rfl rfl ?_
    refine .entry [[45], [45, 45]] _ (b!"A---B") 0 [45] [45, 45] rfl rfl ?_
    refine .byte _ _ _ 65 ?_
    refine .entry [[45], [45, 45], [45, 45], [65]] _ (b!"B") 1 [45, 45] [45, 45] rfl rfl ?_
    exact .byte _ _ _ 66 (.done _)
  · refine .clear 0 _ _ (by decide) ?_
    refine .code 0 45 _ _ (by decide) (by decide) (by decide) (by decide) ?_
    refine .code 1 258 _ _ (by decide) (by decide) (by decide) (by decide) ?_
    refine .code 2 258 _ _ (by decide) (by decide) (by decide) (by decide) ?_
    refine .code 3 65 _ _ (by decide) (by decide) (by decide) (by decide) ?_
    refine .code 4 259 _ _ (by decide) (by decide) (by decide) (by decide) ?_
    refine .code 5 66 _ _ (by decide) (by decide) (by decide) (by decide) ?_
    exact .eod 6 (by decide)

/-- C04 counterexample without EOD: the KwKwK code `45 258` (`---`) yields only two bytes. -/
theorem C04_lzw_kwkwk_counterexample :
    LzwSeq true [] [45, 258] (b!"---") ∧ lzwCodes {} [45, 258] = .ok b!"--" :=
  ⟨.byte _ _ _ 45 (.self [[45]] _ [] 0 [45] rfl rfl rfl (.done _)), by decide +kernel⟩

/-- Premises of `C04_lzw_decodes_partial`: clear, `a b`, then entry 258 = `ab`. -/
example : ∃ raw bits pad, LzwSeq false [] [256, 97, 98, 258] (b!"abab") ∧ LzwPack 0 [256, 97, 98, 258] bits ∧
    bits8 raw = bits ++ pad ∧ pad.length < 8 := by
  refine ⟨[0x80, 0x18, 0x4c, 0x50, 0x20], [256, 97, 98, 258].flatMap (bitsOf 9), [false, false, false, false], ?_, ?_, by decide +kernel, by decide⟩
  · refine .clear _ _ _ (.byte _ _ _ 97 (.byte _ _ _ 98 ?_))
    exact .entry [[97], [98]] [] [] 0 [97] [98] rfl rfl (.done _)
  · refine .clear 0 _ _ (by decide) (.code 0 97 _ _ (by decide) (by decide) (by decide) (by decide) ?_)
    refine .code 1 98 _ _ (by decide) (by decide) (by decide) (by decide) ?_
    exact .code 2 258 _ _ (by decide) (by decide) (by decide) (by decide) (.nil _)

/-! ### C05 -/

/-- C05. Applying `fs ++ gs` is applying `fs` and then `gs` to its result. -/
theorem C05_filters_compose (x : Ext) (ps : Params) (fs gs : List Bytes) (data : Bytes) :
    applyFilterMulti x (.array (fs ++ gs)) data ps =
      (match applyFilterMulti x (.array fs) data ps with
       | .ok d => applyFilterMulti x (.array gs) d ps
       | .error e => .error e) := by
  simp only [applyFilterMulti]
  induction fs generalizing data with
  | nil => rfl
  | cons f fs ih =>
    simp only [List.cons_append, applyFilters]
    cases applyFilter x f data ps with
    | error e => rfl
    | ok d => exact ih d

/-- C05. No filter: the raw data. One filter as a name or as a one-element array is the same. -/
theorem C05_filters_units (x : Ext) (ps : Params) (n data : Bytes) :
    applyFilterMulti x .falsy data ps = .ok data ∧ applyFilterMulti x (.array []) data ps = .ok data ∧
    applyFilterMulti x (.name n) data ps = applyFilterMulti x (.array [n]) data ps ∧
    applyFilterMulti x (.array [n]) data ps = applyFilter x n data ps := by
  refine ⟨rfl, rfl, rfl, ?_⟩
  simp only [applyFilterMulti, applyFilters]
  cases applyFilter x n data ps <;> rfl

/-- The filter names pdfreader knows (ISO 32000-1 table 6 and the inline-image abbreviations). -/
def knownFilters : List Bytes :=
  [b!"ASCII85Decode", b!"A85", b!"ASCIIHexDecode", b!"AHx", b!"FlateDecode", b!"Fl", b!"LZWDecode", b!"LZW",
   b!"RunLengthDecode", b!"RL", b!"CCITTFaxDecode", b!"CCF", b!"DCTDecode", b!"DCT", b!"JBIG2Decode", b!"JPXDecode",
   b!"Crypt"]

/-- C05. An unknown filter raises NotImplementedError wherever it stands, unless a filter before it
already failed. -/
theorem C05_unknown_filter (x : Ext) (ps : Params) (fs gs : List Bytes) (n data d : Bytes)
    (hn : n ∉ knownFilters) (hok : applyFilterMulti x (.array fs) data ps = .ok d) :
    applyFilterMulti x (.array (fs ++ n :: gs)) data ps = .error .notImplemented := by
  have hn' : applyFilter x n d ps = .error .notImplemented := by
    simp only [knownFilters, List.mem_cons, List.not_mem_nil, or_false, not_or] at hn
    obtain ⟨h1, h2, h3, h4, h5, h6, h7, h8, h9, h10, h11, h12, h13, h14, h15, h16, h17⟩ := hn
    simp only [applyFilter, h1, h2, h3, h4, h5, h6, h7, h8, h9, h10, h11, h12, h13, h14, h15, h16, h17, or_self, if_false]
  rw [C05_filters_compose, hok]
  simp only [applyFilterMulti, applyFilters, hn']

/-- C05. The abbreviations allowed in inline images mean the same filters. -/
theorem C05_abbreviations (x : Ext) (ps : Params) (data : Bytes) :
    applyFilter x b!"A85" data ps = applyFilter x b!"ASCII85Decode" data ps ∧
    applyFilter x b!"AHx" data ps = applyFilter x b!"ASCIIHexDecode" data ps ∧
    applyFilter x b!"Fl" data ps = applyFilter x b!"FlateDecode" data ps ∧
    applyFilter x b!"LZW" data ps = applyFilter x b!"LZWDecode" data ps ∧
    applyFilter x b!"RL" data ps = applyFilter x b!"RunLengthDecode" data ps ∧
    applyFilter x b!"CCF" data ps = applyFilter x b!"CCITTFaxDecode" data ps ∧
    applyFilter x b!"DCT" data ps = applyFilter x b!"DCTDecode" data ps := by
  refine ⟨rfl, rfl, rfl, rfl, rfl, rfl, rfl⟩

/-- C05. The files of pictures in JPEG 2000 and JBIG2 are handed over as they are, after the filters before. -/
theorem C05_pictures (x : Ext) (ps : Params) (fs : List Bytes) (n data : Bytes) (hn : n ∈ [b!"JPXDecode", b!"JBIG2Decode"]) :
    applyFilterMulti x (.array (fs ++ [n])) data ps = applyFilterMulti x (.array fs) data ps := by
  have e : ∀ d, applyFilter x n d ps = .ok d := by
    intro d
    simp only [List.mem_cons, List.not_mem_nil, or_false] at hn
    rcases hn with rfl | rfl <;> rfl
  rw [C05_filters_compose]
  cases applyFilterMulti x (.array fs) data ps with
  | error _ => rfl
  | ok d => simp only [applyFilterMulti, applyFilters, e]

/-- Round trip through two filters (hexadecimal text of a run-length encoding). -/
theorem C05_two_filters (x : Ext) (ps : Params) (rs : List Run) (h : ∀ r ∈ rs, r.Legal) (t : Bytes)
    (ht : HexEnc (rs.flatMap Run.enc ++ [128]) t) :
    applyFilterMulti x (.array [b!"ASCIIHexDecode", b!"RunLengthDecode"]) (t ++ [62]) ps = .ok (rs.flatMap Run.data) := by
  have e1 : applyFilter x b!"ASCIIHexDecode" (t ++ [62]) ps = .ok (asciiHexDecode (t ++ [62])) := rfl
  have e2 : ∀ d, applyFilter x b!"RunLengthDecode" d ps = .ok (runLengthDecode d) := fun d => rfl
  simp only [applyFilterMulti, applyFilters, e1, e2, C01_asciihex_decodes _ _ _ ht (Or.inr ⟨[], rfl⟩),
    C03_runlength_decodes rs h []]

example : b!"Foo" ∉ knownFilters := by decide

/-! ### C06 -/

/-- C06 (part). With a PNG predictor, rows whose tag is 0 ("None") are restored exactly. Missing: the
other tags, for which the claim is false (below). -/
theorem C06_png_rows_partial (p : Int) (hp : 10 ≤ p ∧ p ≤ 15) (n : Nat) (rows : List (Byte × Bytes))
    (hn : ∀ r ∈ rows, r.2.length = n) (h0 : ∀ r ∈ rows, r.1 = 0) (prev : Bytes) :
    removePredictors (rows.flatMap (fun r => r.1 :: r.2)) (some p) (some (n : Int)) = .ok (pngUndoRows prev rows) := by
  have h1 : ¬ p = 1 := by omega
  have h2 : ¬ p = 2 := by omega
  have h3 : ¬ (n : Int) + 1 = 0 := by omega
  have h4 : ¬ (n : Int) + 1 < 0 := by omega
  have hlen : rows.length ≤ (rows.flatMap (fun r => r.1 :: r.2)).length := by
    clear hn h0
    induction rows with
    | nil => simp
    | cons r rows ih =>
      simp only [List.flatMap_cons, List.length_append, List.length_cons]; omega
  have hres : ∀ prev, pngUndoRows prev rows = rows.flatMap (·.2) := by
    clear hn hlen
    induction rows with
    | nil => intro _; rfl
    | cons r rows ih =>
      intro prev
      obtain ⟨tag, row⟩ := r
      have htag : tag = 0 := h0 (tag, row) (by simp)
      simp only [pngUndoRows, List.flatMap_cons]
      rw [pngUndo_none tag 0 0 (by rw [htag]; decide), ih (fun r hr => h0 r (by simp [hr]))]
  simp only [removePredictors, Option.getD_some, if_neg h1, if_neg h2, if_pos hp, if_neg h3, if_neg h4]
  rw [hres]
  congr 1
  exact stripRows_rows n rows hn _ hlen

/-- C06. What the code does for every tag: it drops the tag bytes and nothing else. -/
theorem C06_png_rows_only_stripped (p : Int) (hp : 10 ≤ p ∧ p ≤ 15) (n : Nat) (rows : List (Byte × Bytes))
    (hn : ∀ r ∈ rows, r.2.length = n) :
    removePredictors (rows.flatMap (fun r => r.1 :: r.2)) (some p) (some (n : Int)) = .ok (rows.flatMap (·.2)) := by
  have h1 : ¬ p = 1 := by omega
  have h2 : ¬ p = 2 := by omega
  have h3 : ¬ (n : Int) + 1 = 0 := by omega
  have h4 : ¬ (n : Int) + 1 < 0 := by omega
  have hlen : rows.length ≤ (rows.flatMap (fun r => r.1 :: r.2)).length := by
    clear hn
    induction rows with
    | nil => simp
    | cons r rows ih =>
      simp only [List.flatMap_cons, List.length_append, List.length_cons]; omega
  simp only [removePredictors, Option.getD_some, if_neg h1, if_neg h2, if_pos hp, if_neg h3, if_neg h4]
  congr 1
  exact stripRows_rows n rows hn _ hlen

/-- C06 fails: rows coded with "Up" (tag 2, the usual choice for cross-reference streams) come out
wrong. -/
theorem C06_png_counterexample :
    ∃ rows : List (Byte × Bytes), (∀ r ∈ rows, r.2.length = 2) ∧
      removePredictors (rows.flatMap (fun r => r.1 :: r.2)) (some 12) (some 2) ≠ .ok (pngUndoRows [] rows) :=
  ⟨[(2, [1, 2]), (2, [1, 0])], by decide, by decide +kernel⟩

/-- C06. Without predictor (or predictor 1) the data is unchanged; TIFF and unknown predictors are
refused with ValueError. -/
theorem C06_other_predictors (data : Bytes) (cols : Option Int) :
    removePredictors data none cols = .ok data ∧ removePredictors data (some 1) cols = .ok data ∧
    ∀ p : Int, p ≠ 1 → ¬ (10 ≤ p ∧ p ≤ 15) → removePredictors data (some p) cols = .error .valueError := by
  refine ⟨rfl, rfl, ?_⟩
  intro p h1 h2
  simp only [removePredictors, Option.getD_some, if_neg h1, if_neg h2]
  split <;> rfl

example : removePredictors [0, 1, 2, 0, 3, 4] (some 15) (some 2) = .ok [1, 2, 3, 4] := by decide +kernel

end PdfReader
