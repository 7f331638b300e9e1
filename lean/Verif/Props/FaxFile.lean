/-
  C119: facsimile images of a file.
-/
import Verif.Model.FaxFilter
import Verif.Spec.FaxFile
import Verif.Props.ImageFile
import Verif.Props.Fax

namespace PdfReader
open Spec

variable {inflate : Bytes → Option Bytes}

theorem flagOf_is {ps : List (Bytes × Obj)} {key : Bytes} {b : Bool} (h : FlagIs ps key b) : flagOf (dictGet ps key) = b := by
  unfold flagOf
  rcases h with h | ⟨rfl, h | h⟩ <;> rw [h] <;> rfl

theorem group4_k {ps : List (Bytes × Obj)} {w : Nat} {align black : Bool} (h : Group4 ps w align black) : isGroup4 (dictGet ps b!"K") = true := by
  rcases h.k with e | ⟨n, e⟩
  · rw [e]; rfl
  · rw [e]
    unfold isGroup4
    dsimp only
    have h1 : decide (-(n : Int) ≤ 0) = true := decide_eq_true (by omega)
    have h2 : (-(n : Int)).natAbs = n := by omega
    rw [h1, h2]
    simp

/-- The filter is given what the dictionary says. -/
theorem ccitt_group4 {ps : List (Bytes × Obj)} {w : Nat} {align black : Bool} (h : Group4 ps w align black) (data out : Bytes)
    (e : faxDecode data (some (-1)) (some w) align black = .ok out) : ccittFilter (some (.dict ps)) data = .ok out := by
  show ccittFilter.run data ps = _
  unfold ccittFilter.run
  rw [group4_k h, h.columns, flagOf_is h.align, flagOf_is h.black, if_pos rfl]
  show (match faxDecode data (some (-1)) (some (w : Int).toNat) align black with | .ok out => (Except.ok out : Res Bytes) | .error e => .error (faxExc e)) = _
  rw [Int.toNat_natCast, e]

/-- One filter, by its name or in an array. -/
theorem fileData_one {d : List (Bytes × Obj)} {n : Bytes} (hn : n ∈ [b!"CCITTFaxDecode", b!"CCF"])
    (h : dictGet d b!"Filter" = some (.name n) ∨ dictGet d b!"Filter" = some (.arr [.name n])) (data : Bytes) :
    fileData inflate d data = ccittFilter (dictGet d b!"DecodeParms") data := by
  unfold fileData streamData
  generalize hp : paramsEntry (dictGet d b!"DecodeParms") = ps
  generalize ccittFilter (dictGet d b!"DecodeParms") = f
  simp only [List.mem_cons, List.not_mem_nil, or_false] at hn
  rcases hn with rfl | rfl <;> rcases h with h | h <;> rw [h] <;>
    (show (match f data with | .error e => (.error e : Res Bytes) | .ok d => .ok d) = f data) <;> cases f data <;> rfl

/-- C119 as far as it holds: Group 4 data in a stream of a file decode to the pixels of the image. -/
theorem C119_stream_partial {d : List (Bytes × Obj)} {w : Nat} {align black : Bool} (h : FaxStream d w align black) (hw : 0 < w) (rows : List (List Bool)) (data : Bytes)
    (hd : FaxData w align rows data) : ∃ out, fileData inflate d data = .ok out ∧ ImageBits black rows (dataBits out) := by
  obtain ⟨out, e, hb⟩ := C82_decodes w hw align black rows data hd
  obtain ⟨n, hn, hf⟩ := h.filter
  obtain ⟨ps, hp, hg⟩ := h.parms
  exact ⟨out, by rw [fileData_one hn hf, hp, ccitt_group4 hg data out e], hb⟩

theorem fax_pictured {store : Store} {d : List (Bytes × Obj)} {w : Nat} {align black : Bool} {rows : List (List Bool)} (h : FaxImage store d w rows.length align black) (hw : 0 < w)
    {data : Bytes} (hd : FaxData w align rows data) :
    ∃ out, ImageBits black rows (dataBits out) ∧ Pictured store (fileData inflate) d data (.pixels b!"1" w rows.length out) := by
  obtain ⟨out, e, hb⟩ := C119_stream_partial (inflate := inflate) h.stream hw rows data hd
  refine ⟨out, hb, ?_⟩
  rcases h.name with hn | hn
  · exact .fax w rows.length (.one b!"CCITTFaxDecode") out h.size (.one _ ⟨_, hn, .atom _ trivial⟩) rfl h.bits h.decode e
  · exact .fax w rows.length (.many [b!"CCITTFaxDecode"]) out h.size (.many _ ⟨_, hn, .cons _ _ _ _ (.atom _ trivial) .nil⟩) rfl h.bits h.decode e

/-- Facsimile images of a document which opens. -/
theorem serves_fax {secure : Nat → Opened → Obj → Res Opened} {clamps : Bool} {file v : Bytes} {dict : List (Bytes × Obj)} {c : Option Bytes}
    {catalog : List (Bytes × Obj)} {content : Spec.Content} (h : Serves (fileData inflate) secure clamps file v dict c catalog content) :
    ∃ F, ∀ fuel, F ≤ fuel → ∃ doc root, openDocument (fileData inflate) (secure fuel) clamps fuel file = .ok (doc, root) ∧
      ∀ (cls : Bytes) d w align black rows data, 0 < w → FaxImage content d w rows.length align black → FaxData w align rows data →
        ∃ out, ImageBits black rows (dataBits out) ∧ ∃ F', ∀ fuel', F' ≤ fuel' → ∀ history : List (Nat × Nat), (∀ k ∈ history, content k.1 k.2 ≠ none) →
          (imagePillow (fileData inflate) (locate doc.env fuel) fuel' (.stream cls d data) (asked doc.env fuel history doc.st)).1 = .ok (.pixels b!"1" w rows.length out) := by
  obtain ⟨F, hF⟩ := serves_pillow h
  refine ⟨F, fun fuel hf => ?_⟩
  obtain ⟨doc, root, e, hp⟩ := hF fuel hf
  refine ⟨doc, root, e, fun cls d w align black rows data hw hx hd => ?_⟩
  obtain ⟨out, hb, hpic⟩ := fax_pictured (inflate := inflate) hx hw hd
  exact ⟨out, hb, hp cls d data _ hpic⟩

/-- C119, the images: whatever was asked of the document before, `to_Pillow()` of a facsimile image of the file gives Pillow its size and its pixels,
line by line. Missing: chains of filters, other codings and defaults (below). -/
theorem C119_pillow_partial (secure : Opened → Obj → Res Opened) (clamps : Bool) (file v : Bytes) (k off : Nat)
    (r : Revision) (rs : List Revision) (content : Spec.Content) (hh : HeaderAt file v k) (hs : StartsAt file off) (hb : clamps = true ∨ 1024 ≤ file.length)
    (hsec : SectionsFrom (fun d raw data => fileData inflate d raw = .ok data) file off (r :: rs))
    (hc : Spec.Holds (fun d raw data => fileData inflate d raw = .ok data) AsIs file k (r :: rs) content) (henc : NoEntry r.dict b!"Encrypt")
    (a b : Nat) (catalog : List (Bytes × Obj)) (c : Option Bytes) (hroot : dictGet r.dict b!"Root" = some (.ref a b))
    (hcat : content a b = some (.dict catalog)) (hcls : DictKind catalog c) :
    ∃ F, ∀ fuel, F ≤ fuel → ∃ doc root, openDocument (fileData inflate) secure clamps fuel file = .ok (doc, root) ∧
      ∀ (cls : Bytes) d w align black rows data, 0 < w → FaxImage content d w rows.length align black → FaxData w align rows data →
        ∃ out, ImageBits black rows (dataBits out) ∧ ∃ F', ∀ fuel', F' ≤ fuel' → ∀ history : List (Nat × Nat), (∀ k ∈ history, content k.1 k.2 ≠ none) →
          (imagePillow (fileData inflate) (locate doc.env fuel) fuel' (.stream cls d data) (asked doc.env fuel history doc.st)).1 = .ok (.pixels b!"1" w rows.length out) :=
  serves_fax (openDocument_opens secure clamps file v k off r rs content hh hs hb hsec hc henc a b catalog c hroot hcat hcls)

/-- C119 for encrypted documents, opened with the user or owner password. -/
theorem C119_encrypted_partial (C : Crypto) (enc : Bytes → Bytes → Bytes) (hC : C.Good enc) (back : Env → Nat → Nat → M (Option Obj)) (clamps : Bool) (file v : Bytes) (k off : Nat)
    (r : Revision) (rs : List Revision) (content : Spec.Content) (hh : HeaderAt file v k) (hs : StartsAt file off) (hb : clamps = true ∨ 1024 ≤ file.length)
    (hsec : SectionsFrom (fun d raw data => fileData inflate d raw = .ok data) file off (r :: rs))
    (en eg : Nat) (d : List (Bytes × Obj)) (henc : dictGet r.dict b!"Encrypt" = some (.ref en eg)) (hd : content en eg = some (.dict d))
    (hcur : ∃ off, CurrentAt (r :: rs) en eg off) (hfil : dictGet d b!"Filter" = some (.name b!"Standard"))
    (password : Text) (pw key : Bytes) (hp : utf8 password = .ok pw) (hun : Unlocks (ciphers C enc) (dictGet r.dict b!"ID") d pw key)
    (hc : Spec.Holds (fun d raw data => fileData inflate d raw = .ok data) (Stored (ciphers C enc) key d) file k (r :: rs) content)
    (a b : Nat) (catalog : List (Bytes × Obj)) (c : Option Bytes) (hroot : dictGet r.dict b!"Root" = some (.ref a b))
    (hcat : content a b = some (.dict catalog)) (hcls : DictKind catalog c) :
    ∃ F, ∀ fuel, F ≤ fuel → ∃ doc root, openWith C back (fileData inflate) clamps fuel password file = .ok (doc, root) ∧
      ∀ (cls : Bytes) d w align black rows data, 0 < w → FaxImage content d w rows.length align black → FaxData w align rows data →
        ∃ out, ImageBits black rows (dataBits out) ∧ ∃ F', ∀ fuel', F' ≤ fuel' → ∀ history : List (Nat × Nat), (∀ k ∈ history, content k.1 k.2 ≠ none) →
          (imagePillow (fileData inflate) (locate doc.env fuel) fuel' (.stream cls d data) (asked doc.env fuel history doc.st)).1 = .ok (.pixels b!"1" w rows.length out) :=
  serves_fax (sealed_serves C enc hC (fun _ => back) clamps file v k off r rs content hh hs hb hsec en eg d henc hd _ (listed_found back hc hd hcur hfil) hfil password pw key hp hun hc a b catalog c
    hroot hcat hcls)

/-! ### Where it fails -/

/-- C119 is false for facsimiles behind another filter: the parameters are then an array, and every such stream fails with AttributeError. (A sole
filter with its parameters in an array, too.) -/
theorem C119_chain_counterexample (d : List (Bytes × Obj)) (data : Bytes) (fs : List Bytes) (p : Obj) (ps : List Obj)
    (hf : dictGet d b!"Filter" = some (.arr ((fs ++ [b!"CCITTFaxDecode"]).map Obj.name))) (hfs : ∀ f ∈ fs, f = b!"ASCII85Decode" ∨ f = b!"ASCIIHexDecode" ∨ f = b!"RunLengthDecode")
    (hp : dictGet d b!"DecodeParms" = some (.arr (p :: ps))) : fileData inflate d data = .error .attributeError := by
  unfold fileData streamData
  rw [hf, hp]
  have hn : ∀ ns : List Bytes, namesOf (ns.map Obj.name) = some ns := by
    intro ns
    induction ns with
    | nil => rfl
    | cons n ns ih => show (namesOf (ns.map Obj.name)).map (n :: ·) = _; rw [ih]; rfl
  have hne : ∃ f rest, fs ++ [b!"CCITTFaxDecode"] = f :: rest := by
    cases fs with
    | nil => exact ⟨_, _, rfl⟩
    | cons f fs => exact ⟨_, _, rfl⟩
  have he : filterEntry (some (.arr ((fs ++ [b!"CCITTFaxDecode"]).map Obj.name))) = .array (fs ++ [b!"CCITTFaxDecode"]) := by
    obtain ⟨f, rest, e⟩ := hne
    unfold filterEntry
    dsimp only
    rw [hn, e]
  rw [he]
  unfold applyFilterMulti
  dsimp only
  clear hf he hne hn
  induction fs generalizing data with
  | nil => rfl
  | cons f fs ih =>
    have hi := fun d => ih d (fun g hg => hfs g (List.mem_cons_of_mem _ hg))
    rcases hfs f List.mem_cons_self with rfl | rfl | rfl <;> exact hi _

/-- C119 is false for the other codings: with any K but -1, or without K, the encoded data are given as they are. -/
theorem C119_coding_counterexample (d ps : List (Bytes × Obj)) (data : Bytes) (hf : dictGet d b!"Filter" = some (.name b!"CCITTFaxDecode"))
    (hp : dictGet d b!"DecodeParms" = some (.dict ps) ∨ (ps = [] ∧ NoEntry d b!"DecodeParms")) (hk : dictGet ps b!"K" = none ∨ ∃ k : Int, k ≠ -1 ∧ dictGet ps b!"K" = some (.int k)) :
    fileData inflate d data = .ok data := by
  rw [fileData_one (n := b!"CCITTFaxDecode") (by simp) (Or.inl hf)]
  have hr : ccittFilter.run data ps = .ok data := by
    have : isGroup4 (dictGet ps b!"K") = false := by
      rcases hk with e | ⟨k, hk, e⟩
      · rw [e]; rfl
      · rw [e]; exact beq_false_of_ne hk
    unfold ccittFilter.run
    rw [this]
    rfl
  rcases hp with e | ⟨rfl, e | e⟩ <;> rw [e] <;> exact hr

/-- C119 is false if Columns is left out, which the standard has stand for 1728: TypeError. -/
theorem C119_columns_counterexample (d ps : List (Bytes × Obj)) (data : Bytes) (hf : dictGet d b!"Filter" = some (.name b!"CCITTFaxDecode"))
    (hp : dictGet d b!"DecodeParms" = some (.dict ps)) (hk : dictGet ps b!"K" = some (.int (-1))) (hc : dictGet ps b!"Columns" = none) :
    fileData inflate d data = .error .typeError := by
  rw [fileData_one (n := b!"CCITTFaxDecode") (by simp) (Or.inl hf), hp]
  show ccittFilter.run data ps = _
  unfold ccittFilter.run
  rw [hk, hc]
  rfl

/-- The decoded data of a JPEG stream are never to be had: TypeError for every stream with this filter. (`to_Pillow()` opens it all the same, C106.) -/
theorem C119_jpeg_counterexample (d : List (Bytes × Obj)) (data : Bytes) (n : Bytes) (hn : n = b!"DCTDecode" ∨ n = b!"DCT") (hf : dictGet d b!"Filter" = some (.name n)) :
    fileData inflate d data = .error .typeError := by
  unfold fileData streamData
  rw [hf]
  rcases hn with rfl | rfl <;> rfl

/-! ### An example -/

/-- A document with a facsimile of two lines of ten pixels. -/
def faxEntries : List (Bytes × Obj) :=
  [(b!"Length", .int 5), (b!"Type", .name b!"XObject"), (b!"Subtype", .name b!"Image"), (b!"Width", .int 10), (b!"Height", .int 2), (b!"BitsPerComponent", .int 1),
    (b!"Filter", .name b!"CCITTFaxDecode"), (b!"DecodeParms", .dict [(b!"K", .int (-1)), (b!"Columns", .int 10)])]

def faxDraft : Draft :=
  { items := [⟨1, 0, .dict [(b!"Type", .name b!"Catalog"), (b!"Pages", .ref 2 0)]⟩, ⟨2, 0, .stream faxEntries [0x2F, 0x78, 0x00, 0x80, 0x08]⟩],
    trailer := [(b!"Size", .int 3), (b!"Root", .ref 1 0)] }

theorem fax_ok : faxDraft.Ok := by
  refine ⟨by decide, by simp [faxDraft, faxEntries, WritableValue, Writable, WritableEnts, WritableItems], ?_, by decide, by decide, by decide,
    by simp [faxDraft, Writable, WritableEnts], by decide⟩
  intro i hi e data h v hv
  simp [faxDraft] at hi
  rcases hi with rfl | rfl <;> simp at h
  rw [← h.1] at hv
  simp [faxEntries] at hv
  subst hv
  decide

theorem fax_image (store : Store) : FaxImage store faxEntries 10 2 false false :=
  ⟨⟨⟨_, List.mem_cons_self, Or.inl rfl⟩, _, rfl, Or.inl rfl, rfl, Or.inr ⟨rfl, Or.inl rfl⟩, Or.inr ⟨rfl, Or.inl rfl⟩⟩, Or.inl rfl,
    ⟨⟨_, rfl, .atom _ trivial⟩, ⟨_, rfl, .atom _ trivial⟩⟩, ⟨_, rfl, .atom _ trivial⟩, Or.inl (.inl rfl)⟩

/-- The hypotheses of C119 are met: the image of this document has the pixels of the two lines. -/
example (secure : Opened → Obj → Res Opened) : ∃ F, ∀ fuel, F ≤ fuel → ∃ doc root,
    openDocument (fileData inflate) secure true fuel (writeFile [faxDraft]) = .ok (doc, root) ∧ ∃ out, ImageBits false [sampleRow, sampleRow] (dataBits out) ∧
      ∃ F', ∀ fuel', F' ≤ fuel' → ∀ history : List (Nat × Nat), (∀ k ∈ history, contentOf [faxDraft] k.1 k.2 ≠ none) →
        (imagePillow (fileData inflate) (locate doc.env fuel) fuel' (.stream b!"Image" faxEntries [0x2F, 0x78, 0x00, 0x80, 0x08]) (asked doc.env fuel history doc.st)).1 =
          .ok (.pixels b!"1" 10 2 out) := by
  have hok : ∀ d ∈ [] ++ [faxDraft], d.Ok := by intro d hd; rw [List.nil_append, List.mem_singleton] at hd; subst hd; exact fax_ok
  have hd : [] ++ [faxDraft] ≠ [] := by simp
  have hsec := sections_of _ hd hok (by decide +kernel) (fun d raw data => fileData inflate d raw = .ok data)
  have hc := holds_of (decoded := fun d raw data => fileData inflate d raw = .ok data) _ hok
  obtain ⟨F, hF⟩ := C119_pillow_partial (inflate := inflate) secure true (writeFile ([] ++ [faxDraft])) _ 0 _ _ _ _ (header_at _ hd) (starts_at _ hd) (Or.inl rfl) hsec hc
    (Or.inl rfl) 1 0 _ _ rfl rfl (.typed _ rfl (by decide))
  refine ⟨F, fun fuel hf => ?_⟩
  obtain ⟨doc, root, e, h⟩ := hF fuel hf
  exact ⟨doc, root, e, h b!"Image" faxEntries 10 false false [sampleRow, sampleRow] _ (by decide) (fax_image _) sampleFax⟩

example : fileData (fun _ => none) faxEntries [0x2F, 0x78, 0x00, 0x80, 0x08] = .ok [0xC7, 0xC0, 0xC7, 0xC0] := by decide +kernel

end PdfReader
