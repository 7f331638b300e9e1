/-
  C97: encrypted documents, from the bytes of the file and the password to the objects, the pages and the strings shown.
-/
import Verif.Lemmas.Sealed
import Verif.Props.View

namespace PdfReader

open Spec

variable {filtered : List (Bytes × Obj) → Bytes → Res Bytes}

theorem note_bf (s : St) (k : Key) (v : Obj) : (s.note k v).bf = s.bf := by
  unfold St.note; split <;> rfl

/-- The parser after the handler was set. -/
def Opened.sealed (o : Opened) (C : Crypto) (hd : Handler) (k : Key) (v : Obj) : Opened :=
  { o with env := { o.env with dec := decryptIfNecessary C (some hd) }, st := o.st.note k v }

theorem sealed_opened {C : Crypto} {hd : Handler} {file v : Bytes} {k : Nat} {r : Revision} {rs : List Revision} {o : Opened}
    (ho : OpenedAs filtered file v k r rs o) (key : Key) (x : Obj) : OpenedAs filtered file v k r rs (o.sealed C hd key x) :=
  ⟨ho.inside, ho.version, ho.trailer, ho.file, ho.filter, ho.sections, by rw [← ho.start]; exact note_bf _ _ _, by rw [← ho.stack]; exact note_stack _ _ _⟩

/-- What the constructor does with the encryption dictionary. -/
theorem secure_handler (C : Crypto) (back : Env → Nat → Nat → M (Option Obj)) (password : Text) {file v : Bytes} {k : Nat} {r : Revision} {rs : List Revision}
    {o : Opened} {d : List (Bytes × Obj)} (ho : OpenedAs filtered file v k r rs o)
    {en eg : Nat} (henc : dictGet r.dict b!"Encrypt" = some (.ref en eg))
    (hfil : dictGet d b!"Filter" = some (.name b!"Standard")) {x : Obj} {xs : List Obj} (hid : dictGet r.dict b!"ID" = some (.arr (x :: xs)))
    {fuel : Nat} (hfound : locateEncrypt o.env (back o.env) fuel en eg o.st = (.ok (.dict d), o.st.note (en, eg) (.dict d))) :
    (if truthy ((dictGet o.trailer b!"Encrypt").getD .null) then secureWith C back fuel password o ((dictGet o.trailer b!"Encrypt").getD .null) else .ok o) =
      match mkHandler C (dictGet r.dict b!"ID") d password with
      | .error e => .error e
      | .ok h => .ok (o.sealed C h (en, eg) (.dict d)) := by
  have e1 := (ho.trailer b!"Encrypt" (by decide)).1 _ henc
  have e2 := (ho.trailer b!"ID" (by decide)).1 _ hid
  rw [e1]
  dsimp only [Option.getD_some]
  rw [if_pos (show truthy (.ref en eg) = true from rfl)]
  unfold secureWith encryptObj
  dsimp only
  rw [hfound]
  dsimp only
  rw [C73_reference_partial C _ o.trailer password en eg d x xs e1 rfl hfil e2, hid]
  cases mkHandler C (some (.arr (x :: xs))) d password with
  | error e => rfl
  | ok h => rfl

/-- The encryption dictionary `en eg` is found, as soon as the document is open, from fuel `F` on. -/
def Found (filtered : List (Bytes × Obj) → Bytes → Res Bytes) (back : Nat → Env → Nat → Nat → M (Option Obj)) (file v : Bytes) (k : Nat) (r : Revision) (rs : List Revision) (en eg : Nat)
    (d : List (Bytes × Obj)) (F : Nat) : Prop :=
  ∀ fuel o, F ≤ fuel → OpenedAs filtered file v k r rs o → OnlySections o.st.reg (r :: rs) → (∀ n g x, o.env.dec n g x = .ok x) →
    locateEncrypt o.env (back fuel o.env) fuel en eg o.st = (.ok (.dict d), o.st.note (en, eg) (.dict d))

theorem listed_found {X : Ciphers} {key : Bytes} {content : Spec.Content} (back : Env → Nat → Nat → M (Option Obj)) {file v : Bytes} {k : Nat} {r : Revision} {rs : List Revision}
    {d : List (Bytes × Obj)} (hc : Spec.Holds (fun d raw data => filtered d raw = .ok data) (Stored X key d) file k (r :: rs) content) {en eg : Nat}
    (hd : content en eg = some (.dict d)) (hcur : ∃ off, CurrentAt (r :: rs) en eg off) (hfil : dictGet d b!"Filter" = some (.name b!"Standard")) :
    Found filtered (fun _ => back) file v k r rs en eg d (rs.length + 6) :=
  fun fuel _ hf ho hos hpl => encrypt_found ho hos hpl hc hd hcur (truthy_dict hfil) (back _) fuel hf

/-- An encrypted document opens with its password. -/
theorem sealed_serves (C : Crypto) (enc : Bytes → Bytes → Bytes) (hC : C.Good enc) (back : Nat → Env → Nat → Nat → M (Option Obj)) (clamps : Bool) (file v : Bytes) (k off : Nat)
    (r : Revision) (rs : List Revision) (content : Spec.Content) (hh : HeaderAt file v k) (hs : StartsAt file off) (hb : clamps = true ∨ 1024 ≤ file.length)
    (hsec : SectionsFrom (fun d raw data => filtered d raw = .ok data) file off (r :: rs))
    (en eg : Nat) (d : List (Bytes × Obj)) (henc : dictGet r.dict b!"Encrypt" = some (.ref en eg)) (hd : content en eg = some (.dict d))
    (Fn : Nat) (hfound : Found filtered back file v k r rs en eg d Fn) (hfil : dictGet d b!"Filter" = some (.name b!"Standard"))
    (password : Text) (pw key : Bytes) (hp : utf8 password = .ok pw) (hun : Unlocks (ciphers C enc) (dictGet r.dict b!"ID") d pw key)
    (hc : Spec.Holds (fun d raw data => filtered d raw = .ok data) (Stored (ciphers C enc) key d) file k (r :: rs) content)
    (a b : Nat) (catalog : List (Bytes × Obj)) (c : Option Bytes) (hroot : dictGet r.dict b!"Root" = some (.ref a b))
    (hcat : content a b = some (.dict catalog)) (hcls : DictKind catalog c) :
    Serves filtered (fun fuel => secureWith C (back fuel) fuel password) clamps file v r.dict c catalog content := by
  have hid : ∃ x xs, dictGet r.dict b!"ID" = some (.arr (x :: xs)) := by
    cases hun with
    | user E h1 _ => obtain ⟨⟨h, rest, e, _⟩, _⟩ := h1; exact ⟨_, _, e⟩
    | owner E user h1 _ => obtain ⟨⟨h, rest, e, _⟩, _⟩ := h1; exact ⟨_, _, e⟩
    | user5 E k1 k2 h1 _ => obtain ⟨⟨h, rest, _, e, _⟩, _⟩ := h1; exact ⟨_, _, e⟩
    | owner5 E k1 k2 h1 _ => obtain ⟨⟨h, rest, _, e, _⟩, _⟩ := h1; exact ⟨_, _, e⟩
  obtain ⟨x, xs, hid⟩ := hid
  obtain ⟨F, hF⟩ := opened_delivers hc
  obtain ⟨h, hmk, hkey⟩ := unlocks_handler hC hun hp
  refine ⟨F + rs.length + 6 + Fn, fun fuel hf => ?_⟩
  obtain ⟨o, e, ho, hos, hpl⟩ := openDoc_opens clamps file v k off r rs hh hs hb hsec fuel (by omega)
  have hsecure := secure_handler C (back fuel) password ho henc hfil hid (hfound fuel o (by omega) ho hos hpl)
  rw [hmk] at hsecure
  dsimp only at hsecure
  obtain ⟨I, hI, hdel⟩ := hF v (o.sealed C h (en, eg) (.dict d)) (sealed_opened ho _ _)
    (note_agreeing hos rfl hc hd)
    (fun n g x w hst => stored_decrypts hC hun hmk hkey hst) (fun n g k => rfl)
  obtain ⟨h1, h2⟩ := openDocument_root e hsecure hI (hdel fuel (by omega)) ((ho.trailer b!"Root" (by decide)).1 _ hroot) hcat hcls (by omega)
  exact ⟨_, h1, ho.version, ho.trailer, I, h2, fun f' hf' => hdel f' (by omega)⟩

/-- C97: an encrypted file opens with its user or its owner password, and every object which it holds is delivered, streams decrypted,
whichever objects were asked for before. Versions 1 to 5 of the standard security handler with RC4, AES-128, AES-256 or Identity for streams.
The encryption dictionary is listed in the cross-reference sections. -/
theorem C97_delivered (C : Crypto) (enc : Bytes → Bytes → Bytes) (hC : C.Good enc) (back : Env → Nat → Nat → M (Option Obj)) (clamps : Bool) (file v : Bytes) (k off : Nat)
    (r : Revision) (rs : List Revision) (content : Spec.Content) (hh : HeaderAt file v k) (hs : StartsAt file off) (hb : clamps = true ∨ 1024 ≤ file.length)
    (hsec : SectionsFrom (fun d raw data => filtered d raw = .ok data) file off (r :: rs))
    (en eg : Nat) (d : List (Bytes × Obj)) (henc : dictGet r.dict b!"Encrypt" = some (.ref en eg)) (hd : content en eg = some (.dict d))
    (hcur : ∃ off, CurrentAt (r :: rs) en eg off) (hfil : dictGet d b!"Filter" = some (.name b!"Standard"))
    (password : Text) (pw key : Bytes) (hp : utf8 password = .ok pw) (hun : Unlocks (ciphers C enc) (dictGet r.dict b!"ID") d pw key)
    (hc : Spec.Holds (fun d raw data => filtered d raw = .ok data) (Stored (ciphers C enc) key d) file k (r :: rs) content)
    (a b : Nat) (catalog : List (Bytes × Obj)) (c : Option Bytes) (hroot : dictGet r.dict b!"Root" = some (.ref a b))
    (hcat : content a b = some (.dict catalog)) (hcls : DictKind catalog c) :
    ∃ F, ∀ fuel, F ≤ fuel → ∃ doc, openWith C back filtered clamps fuel password file = .ok (doc, .dict c catalog) ∧ doc.version = v ∧
      TrailerIs doc.trailer r.dict ∧
      ∀ history : List (Nat × Nat), (∀ k ∈ history, content k.1 k.2 ≠ none) → ∀ n g x, content n g = some x →
        (locate doc.env fuel n g (asked doc.env fuel history doc.st)).1 = .ok x := by
  obtain ⟨F, hF⟩ := sealed_serves C enc hC (fun _ => back) clamps file v k off r rs content hh hs hb hsec en eg d henc hd _ (listed_found back hc hd hcur hfil) hfil password pw key hp hun hc a b catalog c
    hroot hcat hcls
  refine ⟨F, fun fuel hf => ?_⟩
  obtain ⟨doc, e, hv, ht, I, hI, hdel⟩ := hF fuel hf
  exact ⟨doc, e, hv, ht, fun history hh n g x hx => (hdel fuel hf n g x _ (asked_keeps (hdel fuel hf) history _ hI hh) hx).1⟩

/-- C97: with the password, iterating over the pages of an encrypted document yields the pages of its page tree in order, and ends; and the viewer
shows, page by page, the strings which the content of the page shows. -/
theorem C97_shows (builtin : Builtin) (predefined : Bytes → Option CMap) (C : Crypto) (enc : Bytes → Bytes → Bytes) (hC : C.Good enc) (back : Env → Nat → Nat → M (Option Obj)) (clamps : Bool) (file v : Bytes) (k off : Nat)
    (r : Revision) (rs : List Revision) (content : Spec.Content) (hh : HeaderAt file v k) (hs : StartsAt file off) (hb : clamps = true ∨ 1024 ≤ file.length)
    (hsec : SectionsFrom (fun d raw data => filtered d raw = .ok data) file off (r :: rs))
    (en eg : Nat) (d : List (Bytes × Obj)) (henc : dictGet r.dict b!"Encrypt" = some (.ref en eg)) (hd : content en eg = some (.dict d))
    (hcur : ∃ off, CurrentAt (r :: rs) en eg off) (hfil : dictGet d b!"Filter" = some (.name b!"Standard"))
    (password : Text) (pw key : Bytes) (hp : utf8 password = .ok pw) (hun : Unlocks (ciphers C enc) (dictGet r.dict b!"ID") d pw key)
    (hc : Spec.Holds (fun d raw data => filtered d raw = .ok data) (Stored (ciphers C enc) key d) file k (r :: rs) content)
    (a b : Nat) (catalog : List (Bytes × Obj)) (c : Option Bytes) (hroot : dictGet r.dict b!"Root" = some (.ref a b))
    (hcat : content a b = some (.dict catalog)) (hcls : DictKind catalog c)
    (n g : Nat) (node : List (Bytes × Obj)) (ps : List (List (Bytes × Obj))) (hpages : dictGet catalog b!"Pages" = some (.ref n g))
    (hnode : content n g = some (.dict node)) (htype : dictGet node b!"Type" = some (.name b!"Pages")) (htree : PageTree content n g ps) :
    (∃ F, ∀ fuel, F ≤ fuel → ∃ doc, openWith C back filtered clamps fuel password file = .ok (doc, .dict c catalog) ∧
      ∃ F', ∀ fuel', F' ≤ fuel' → ∃ s', docPages (locate doc.env fuel) fuel' (.dict c catalog) doc.st = (ps.map asPage, none, s')) ∧
    ∀ (tss : List (List Text)), PagesShow content filtered builtin predefined ps tss → ps ≠ [] →
    ∃ F, ∀ fuel, F ≤ fuel → ∃ F', ∀ fuel', F' ≤ fuel' → ∃ doc w,
      viewFile filtered builtin predefined (secureWith C back fuel password) clamps fuel fuel' file = .ok doc ∧ openViewer doc = .ok w ∧
      (∃ is w', canvasAll doc (ps.length + 1) (false, w) = (is, none, w') ∧ is.map (fun i => (w'.heap[i]?).map (·.strings)) = tss.map some) ∧
      ∀ w, Clean doc w → ∀ (n : Nat) ts, tss[n]? = some ts → ∃ w', Viewer.navigate doc (n + 1) w = (.ok (), w') ∧
        ∃ u, w'.render = (.ok (), u) ∧ u.current.strings = ts := by
  have h := sealed_serves C enc hC (fun _ => back) clamps file v k off r rs content hh hs hb hsec en eg d henc hd _ (listed_found back hc hd hcur hfil) hfil password pw key hp hun hc a b catalog c
    hroot hcat hcls
  exact ⟨serves_pages h n g node ps hpages hnode htype htree, fun tss hshow hne => serves_shows builtin predefined h n g node ps hpages hnode htype htree tss hshow hne⟩

/-- C97: a password which is neither the user nor the owner password is refused with ValueError. -/
theorem C97_refused (C : Crypto) (enc : Bytes → Bytes → Bytes) (hC : C.Good enc) (back : Env → Nat → Nat → M (Option Obj)) (clamps : Bool) (file v : Bytes) (k off : Nat)
    (r : Revision) (rs : List Revision) (content : Spec.Content) (hh : HeaderAt file v k) (hs : StartsAt file off) (hb : clamps = true ∨ 1024 ≤ file.length)
    (hsec : SectionsFrom (fun d raw data => filtered d raw = .ok data) file off (r :: rs))
    (en eg : Nat) (d : List (Bytes × Obj)) (henc : dictGet r.dict b!"Encrypt" = some (.ref en eg)) (hd : content en eg = some (.dict d))
    (hcur : ∃ off, CurrentAt (r :: rs) en eg off) (hfil : dictGet d b!"Filter" = some (.name b!"Standard"))
    (password : Text) (pw key : Bytes) (hp : utf8 password = .ok pw) (hlo : Locked (ciphers C enc) (dictGet r.dict b!"ID") d pw)
    (hc : Spec.Holds (fun d raw data => filtered d raw = .ok data) (Stored (ciphers C enc) key d) file k (r :: rs) content) (fuel : Nat) (hf : rs.length + 6 ≤ fuel) :
    openWith C back filtered clamps fuel password file = .error .valueError := by
  have hid : ∃ x xs, dictGet r.dict b!"ID" = some (.arr (x :: xs)) := by
    cases hlo with
    | mk E h1 _ => obtain ⟨⟨h, rest, e, _⟩, _⟩ := h1; exact ⟨_, _, e⟩
    | mk5 E h1 _ => obtain ⟨⟨h, rest, _, e, _⟩, _⟩ := h1; exact ⟨_, _, e⟩
  obtain ⟨x, xs, hid⟩ := hid
  obtain ⟨o, e, ho, hos, hpl⟩ := openDoc_opens clamps file v k off r rs hh hs hb hsec fuel (by omega)
  have hsecure := secure_handler C back password ho henc hfil hid (encrypt_found ho hos hpl hc hd hcur (truthy_dict hfil) (back o.env) fuel hf)
  rw [locked_refused hC hlo hp] at hsecure
  unfold openWith openDocument
  rw [e]
  dsimp only at hsecure ⊢
  rw [hsecure]

end PdfReader
