/-
  C94: reading back a file written with an object stream and a cross-reference stream, encoded by filters.
-/
import Verif.Lemmas.WriteStream
import Verif.Props.File
import Verif.Props.StreamData

namespace PdfReader

open Spec

/-- The filters undo the encoder: whatever else a dictionary contains, data encoded are decoded under the entries `how`. -/
def Undoes (filtered : List (Bytes × Obj) → Bytes → Res Bytes) (how : List (Bytes × Obj)) (encode : Bytes → Bytes) : Prop :=
  ∀ d data, dictGet d b!"Filter" = dictGet how b!"Filter" → dictGet d b!"DecodeParms" = dictGet how b!"DecodeParms" → filtered d (encode data) = .ok data

variable {filtered : List (Bytes × Obj) → Bytes → Res Bytes}

/-- C94: a file written with its objects partly in an object stream, and with a cross-reference stream, opens; the user sees the entries of
the trailer; and every object asked for, be it in the object stream or not, is the one written, whatever was asked for before. -/
theorem C94_read_back (clamps : Bool) (c : Compressed) (hc : c.Ok) (hundo : Undoes filtered c.how c.encode)
    (hb : clamps = true ∨ 1024 ≤ c.write.length) :
    ∃ F, ∀ fuel, F ≤ fuel → ∃ o, openDoc filtered clamps fuel c.write = .ok o ∧ o.version = b!"1.7" ∧
      (∀ key ∈ [b!"Root", b!"Encrypt", b!"Info", b!"ID"], ∀ v, dictGet c.trailer key = some v → dictGet o.trailer key = some v) ∧
      ∀ history : List (Nat × Nat), (∀ k ∈ history, c.content k.1 k.2 ≠ none) → ∀ n g x, c.content n g = some x →
        (locate o.env fuel n g (asked o.env fuel history o.st)).1 = .ok x := by
  have hsec := sections_compressed (decoded := fun d raw data => filtered d raw = .ok data) hc hundo
  have hh := holds_compressed (decoded := fun d raw data => filtered d raw = .ok data) hc hundo (fun d raw a b h1 h2 => by rw [h1] at h2; cases h2; rfl)
  obtain ⟨F, hF⟩ := C90_delivered clamps _ _ 0 _ (revC c) [] _ (header_compressed c) (starts_compressed c) hb hsec hh
  refine ⟨F + 1, fun fuel hf => ?_⟩
  obtain ⟨o, h1, h2, h3, _⟩ := C89_opens (filtered := filtered) clamps _ _ 0 _ (revC c) [] (header_compressed c) (starts_compressed c) hb hsec fuel (by simp; omega)
  obtain ⟨o', h1', h4⟩ := hF fuel (by omega)
  rw [h1] at h1'
  cases h1'
  refine ⟨o, h1, h2, fun key hkey v hv => ?_, h4⟩
  refine (h3 key ?_).1 v (xref_trailer hc hv)
  simp only [List.mem_cons, List.not_mem_nil, or_false] at hkey ⊢
  rcases hkey with h | h | h | h <;> simp [h]

/-- C94, for the pages. -/
theorem C94_pages_read_back (secure : Opened → Obj → Res Opened) (clamps : Bool) (c : Compressed) (hc : c.Ok) (hundo : Undoes filtered c.how c.encode)
    (hb : clamps = true ∨ 1024 ≤ c.write.length) (henc : b!"Encrypt" ∉ c.trailer.map (·.1)) (a b : Nat) (catalog : List (Bytes × Obj)) (k : Option Bytes)
    (hroot : dictGet c.trailer b!"Root" = some (.ref a b)) (hcat : c.content a b = some (.dict catalog)) (hcls : DictKind catalog k)
    (n g : Nat) (node : List (Bytes × Obj)) (ps : List (List (Bytes × Obj))) (hpages : dictGet catalog b!"Pages" = some (.ref n g))
    (hnode : c.content n g = some (.dict node)) (htype : dictGet node b!"Type" = some (.name b!"Pages"))
    (htree : PageTree c.content n g ps) :
    ∃ F, ∀ fuel, F ≤ fuel → ∃ doc, openDocument filtered secure clamps fuel c.write = .ok (doc, .dict k catalog) ∧
      ∃ F', ∀ fuel', F' ≤ fuel' → ∃ s', docPages (locate doc.env fuel) fuel' (.dict k catalog) doc.st = (ps.map asPage, none, s') := by
  have hsec := sections_compressed (decoded := fun d raw data => filtered d raw = .ok data) hc hundo
  have hh := holds_compressed (decoded := fun d raw data => filtered d raw = .ok data) hc hundo (fun d raw a b h1 h2 => by rw [h1] at h2; cases h2; rfl)
  refine C91_pages secure clamps _ _ 0 _ (revC c) [] _ (header_compressed c) (starts_compressed c) hb hsec hh ?_ a b catalog k (xref_trailer hc hroot) hcat hcls
    n g node ps hpages hnode htype htree
  left
  show dictGet c.xrefDict _ = none
  unfold Compressed.xrefDict
  rw [dictGet_append, dictGet_notKey _ _ (by simp), dictGet_append, how_other hc (by simp) (by simp)]
  exact dictGet_notKey _ _ henc

/-! ### Encoders -/

/-- No filter. -/
theorem undoes_plain (x : Ext) : Undoes (streamData x) [] id := by
  intro d data hf hp
  unfold streamData
  rw [hf, hp]
  rfl

/-- FlateDecode, if zlib decompresses what was compressed. -/
theorem undoes_flate (x : Ext) (deflate : Bytes → Bytes) (h : ∀ data, x.inflate (deflate data) = some data) :
    Undoes (streamData x) [(b!"Filter", .name b!"FlateDecode")] deflate := by
  intro d data hf hp
  rw [show dictGet [(b!"Filter", Obj.name b!"FlateDecode")] b!"Filter" = some (.name b!"FlateDecode") from rfl] at hf
  rw [show dictGet [(b!"Filter", Obj.name b!"FlateDecode")] b!"DecodeParms" = none from rfl] at hp
  rw [(C79_direct_partial x d _).2.2.1 _ (by simp) hf hp]
  have e : applyFilter x b!"FlateDecode" (deflate data) (.dict none none) = .ok data := by
    show flateDecode x.inflate (deflate data) (.dict none none) = _
    unfold flateDecode
    rw [h]
    rfl
  unfold decodeChain
  show (match applyFilter x b!"FlateDecode" (deflate data) (.dict none none) with | .error e => (.error e : Res Bytes) | .ok d => decodeChain x [] d) = _
  rw [e]
  rfl

/-- Two hexadecimal digits for a byte, and `>`. -/
def toHex (data : Bytes) : Bytes := (data.flatMap fun c => [Spec.hexOf (c.toNat / 16), Spec.hexOf (c.toNat % 16)]) ++ [62]

theorem toHex_enc : ∀ data : Bytes, HexEnc data (data.flatMap fun c => [Spec.hexOf (c.toNat / 16), Spec.hexOf (c.toNat % 16)])
  | [] => .nil [] (by simp [Blank])
  | c :: data => by
    have dig : ∀ v, v < 16 → HexDigit v (Spec.hexOf v) := by
      intro v hv
      left
      unfold Spec.hexOf
      have : v < (b!"0123456789ABCDEF").length := hv
      rw [List.getElem?_eq_getElem this]
      rfl
    have hc := c.toNat_lt
    exact .cons c _ _ [] [] data _ (by simp [Blank]) (by simp [Blank]) (dig _ (by omega)) (dig _ (by omega)) (toHex_enc data)

/-- ASCIIHexDecode. -/
theorem undoes_hex (x : Ext) : Undoes (streamData x) [(b!"Filter", .name b!"ASCIIHexDecode")] toHex := by
  intro d data hf hp
  rw [show dictGet [(b!"Filter", Obj.name b!"ASCIIHexDecode")] b!"Filter" = some (.name b!"ASCIIHexDecode") from rfl] at hf
  rw [show dictGet [(b!"Filter", Obj.name b!"ASCIIHexDecode")] b!"DecodeParms" = none from rfl] at hp
  rw [(C79_direct_partial x d _).2.2.1 _ (by simp) hf hp]
  have e : applyFilter x b!"ASCIIHexDecode" (toHex data) (.dict none none) = .ok data := by
    show Except.ok (asciiHexDecode (toHex data)) = _
    rw [show asciiHexDecode (toHex data) = data from C01_asciihex_decodes data _ [62] (toHex_enc data) (Or.inr ⟨[], rfl⟩)]
  show (match applyFilter x b!"ASCIIHexDecode" (toHex data) (.dict none none) with | .error e => (.error e : Res Bytes) | .ok d => decodeChain x [] d) = _
  rw [e]
  rfl

/-- A document whose catalog and page tree are in an object stream. -/
def packed : Compressed :=
  { how := [(b!"Filter", .name b!"ASCIIHexDecode")], encode := toHex,
    items := [⟨3, 0, .dict [(b!"Type", .name b!"Page"), (b!"Parent", .ref 2 0), (b!"Contents", .ref 5 0)]⟩, ⟨5, 0, .stream [(b!"Length", .int 13)] b!"BT (a) Tj ET\n"⟩],
    members := [(1, .dict [(b!"Type", .name b!"Catalog"), (b!"Pages", .ref 2 0)]), (2, .dict [(b!"Type", .name b!"Pages"), (b!"Kids", .arr [.ref 3 0, .ref 4 0]), (b!"Count", .int 2)]),
      (4, .dict [(b!"Type", .name b!"Page"), (b!"Parent", .ref 2 0)])],
    pack := 6, xref := 7, trailer := [(b!"Root", .ref 1 0)] }

theorem packed_ok : packed.Ok := by
  refine ⟨by simp [packed, WritableValue, Writable, WritableEnts], ?_, ?_, by decide, by decide, by decide, by decide, by decide +kernel, by decide,
    by simp [packed, Writable, WritableEnts], by simp [packed], by decide, by simp [packed], by simp [packed, Writable, WritableEnts]⟩
  · intro i hi e data h v hv
    simp [packed] at hi
    rcases hi with rfl | rfl <;> simp at h
    rw [← h.1] at hv
    simp at hv
  · intro m hm
    simp [packed] at hm
    rcases hm with rfl | rfl | rfl <;> simp [Writable, WritableEnts, WritableItems]

/-- The hypotheses of C94 are met. -/
example (x : Ext) (secure : Opened → Obj → Res Opened) :
    ∃ F, ∀ fuel, F ≤ fuel → ∃ doc, openDocument (streamData x) secure true fuel packed.write =
        .ok (doc, .dict (some b!"Catalog") [(b!"Type", .name b!"Catalog"), (b!"Pages", .ref 2 0)]) ∧
      ∃ F', ∀ fuel', F' ≤ fuel' → ∃ s', docPages (locate doc.env fuel) fuel' (.dict (some b!"Catalog") [(b!"Type", .name b!"Catalog"), (b!"Pages", .ref 2 0)]) doc.st =
        ([asPage [(b!"Type", .name b!"Page"), (b!"Parent", .ref 2 0), (b!"Contents", .ref 5 0)],
          asPage [(b!"Type", .name b!"Page"), (b!"Parent", .ref 2 0)]], none, s') :=
  C94_pages_read_back secure true packed packed_ok (undoes_hex x) (Or.inl rfl) (by decide) 1 0 _ _ rfl rfl
    (.typed _ rfl (by decide)) 2 0 _ [_, _] rfl rfl rfl
    (.node 2 0 _ [(3, 0), (4, 0)] _ rfl rfl (.direct _ _ rfl) (.cons 3 0 _ [_] _ (.page 3 0 _ rfl rfl) (.cons 4 0 _ [_] _ (.page 4 0 _ rfl rfl) .nil)))

/-- Its object stream before encoding. -/
example : packed.packData = b!"\n1 0\n2 31\n4 76\n<</Type /Catalog/Pages 2 0 R>>\n<</Type /Pages/Kids [ 3 0 R 4 0 R]/Count 2>>\n<</Type /Page/Parent 2 0 R>>\n" := by
  decide +kernel

end PdfReader
