/-
  Rendering of content which shows strings.
-/
import Verif.Lemmas.Viewer
import Verif.Props.Objects

namespace PdfReader

open Spec

/-- The state of rendering corresponds to the stack of fonts. -/
structure PaintInv (res : Resources) (fs : List (Option Bytes)) (p : Paint) : Prop where
  fonts : (ensureState p.gss).map fontKey = fs.map Except.ok
  copies : ∀ g ∈ p.gss, ∀ e ∈ g, copyable e.2 = true
  decoders : ∀ k d, assoc k p.decoders = some d → lookupFont res k = .ok d

theorem paint_init (res : Resources) : PaintInv res [none] {} :=
  { fonts := rfl, copies := fun g hg => absurd hg List.not_mem_nil, decoders := fun k d h => by cases h }

theorem lookupFont_named {res : Resources} (hn : Named res) (k : Option Bytes) : lookupFont res k = .ok (k.bind fun n => resource res b!"Font" n) := by
  unfold lookupFont resource
  cases h : assoc b!"Font" res with
  | none => cases k <;> rfl
  | some c =>
    cases c with
    | named es => rfl
    | procs ns => exact absurd h (hn _ (by simp) ns)

theorem lookup_named {res : Resources} (hn : Named res) {cat : Bytes} (hc : cat ∈ [b!"Font", b!"XObject", b!"ExtGState"]) (n : Bytes) :
    lookupResource res cat (some n) = .ok (resource res cat n) := by
  unfold lookupResource resource
  cases h : assoc cat res with
  | none => rfl
  | some c =>
    cases c with
    | named es => rfl
    | procs ns => exact absurd h (hn _ hc ns)

theorem pairs_hex : ∀ ds : Bytes, ∀ s, hexPairs ds = some s → fallbackHex.ahxBytes ds = .ok s
  | [], s, h => by cases h; rfl
  | [_], s, h => by cases h
  | a :: b :: r, s, h => by
    unfold hexPairs at h
    unfold fallbackHex.ahxBytes
    cases ha : hexVal? a with
    | none => rw [ha] at h; cases h
    | some x =>
      cases hb : hexVal? b with
      | none => rw [ha, hb] at h; cases h
      | some y =>
        cases hr : hexPairs r with
        | none => rw [ha, hb, hr] at h; cases h
        | some t =>
          rw [ha, hb, hr] at h
          rw [pairs_hex r t hr]
          cases h
          rfl

theorem latin1_default {o : Obj} {t : Text} (h : latin1 o = some t) : decodeDefault o = .ok t := by
  cases o with
  | str s => cases h; rfl
  | hex ds =>
    unfold latin1 at h
    dsimp only at h
    cases hp : hexPairs ds with
    | none => rw [hp] at h; cases h
    | some s =>
      rw [hp] at h
      cases h
      show (fallbackHex.ahxBytes ds).map asc = _
      rw [pairs_hex ds s hp]
      rfl
  | _ => cases h

theorem ensure_inv {res : Resources} {fs : List (Option Bytes)} {p : Paint} (h : PaintInv res fs p) : PaintInv res fs { p with gss := ensureState p.gss } := by
  refine ⟨?_, ?_, h.decoders⟩
  · show (ensureState (ensureState p.gss)).map fontKey = _
    rw [ensure_idem]
    exact h.fonts
  · intro g hg e he
    unfold ensureState at hg
    dsimp only at hg
    split at hg
    · rw [List.mem_singleton] at hg
      subst hg
      cases he
    · exact h.copies g hg e he

theorem paint_head {res : Resources} {f : Option Bytes} {fs : List (Option Bytes)} {p : Paint} (h : PaintInv res (f :: fs) p) :
    ∃ g gs, ensureState p.gss = g :: gs ∧ fontKey g = .ok f ∧ gs.map fontKey = fs.map Except.ok := by
  have := h.fonts
  cases he : ensureState p.gss with
  | nil => exact absurd he (ensure_ne _)
  | cons g gs =>
    rw [he] at this
    injection this with h1 h2
    exact ⟨g, gs, rfl, h1, h2⟩

theorem paint_cons {res : Resources} {fs : List (Option Bytes)} {p : Paint} (h : PaintInv res fs p) : ∃ f fs', fs = f :: fs' := by
  have := h.fonts
  cases fs with
  | nil =>
    have := congrArg List.length this
    rw [List.length_map] at this
    exact absurd (List.length_eq_zero_iff.mp this) (ensure_ne _)
  | cons f fs => exact ⟨f, fs, rfl⟩

theorem decode_with {h : Host} {res : Resources} {f : Option Bytes} {o : Obj} {t : Text} (hd : decoding h.decode res f o = some t) :
    (match f.bind fun n => resource res b!"Font" n with | some v => h.decode v o | none => decodeDefault o) = .ok t := by
  unfold decoding at hd
  cases hf : f.bind fun n => resource res b!"Font" n with
  | none =>
    rw [hf] at hd
    exact latin1_default hd
  | some v =>
    rw [hf] at hd
    dsimp only at hd ⊢
    cases hv : h.decode v o with
    | error e => rw [hv] at hd; cases hd
    | ok u => rw [hv] at hd; cases hd; rfl

theorem decodeString_good {h : Host} {res : Resources} (hn : Named res) {f : Option Bytes} {fs : List (Option Bytes)} {p : Paint} (hi : PaintInv res (f :: fs) p)
    {o : Obj} {t : Text} (hd : decoding h.decode res f o = some t) : ∃ p', decodeString h res o p = (.ok t, p') ∧ PaintInv res (f :: fs) p' ∧ p'.canvas = p.canvas := by
  obtain ⟨g, gs, he, hk, _⟩ := paint_head hi
  have hi' := ensure_inv hi
  have hdec := decode_with hd
  unfold decodeString
  dsimp only
  have hh : (ensureState p.gss).headD [] = g := by rw [he]; rfl
  rw [hh, hk]
  dsimp only
  cases ha : assoc f p.decoders with
  | some d =>
    dsimp only
    have := hi.decoders f d ha
    rw [lookupFont_named hn] at this
    injection this with this
    rw [this] at hdec
    refine ⟨{ p with gss := ensureState p.gss }, ?_, hi', rfl⟩
    rw [← hdec]
    cases d <;> rfl
  | none =>
    dsimp only
    rw [lookupFont_named hn]
    dsimp only
    refine ⟨{ p with gss := ensureState p.gss, decoders := (f, f.bind fun n => resource res b!"Font" n) :: p.decoders }, ?_, ⟨hi'.fonts, hi'.copies, ?_⟩, rfl⟩
    · rw [← hdec]
      cases (f.bind fun n => resource res b!"Font" n) <;> rfl
    · intro k d hkd
      unfold assoc at hkd
      dsimp only at hkd
      by_cases e : f = k
      · rw [if_pos e] at hkd
        cases hkd
        subst e
        exact lookupFont_named hn f
      · rw [if_neg e] at hkd
        exact hi.decoders k d hkd

/-! ### Printing -/

theorem printObjs_ok : ∀ xs : List Obj, (∀ x ∈ xs, ∃ t, printObj x = .ok t) → ∃ ts, printObjs xs = .ok ts
  | [], _ => ⟨[], rfl⟩
  | x :: xs, h => by
    obtain ⟨t, ht⟩ := h x (by simp)
    obtain ⟨ts, hts⟩ := printObjs_ok xs fun y hy => h y (by simp [hy])
    exact ⟨t :: ts, by unfold printObjs; rw [ht, hts]; rfl⟩

theorem printEnts_ok : ∀ es : List (Bytes × Obj), (∀ e ∈ es, ∃ t, printObj e.2 = .ok t) → ∃ ts, printEnts es = .ok ts
  | [], _ => ⟨[], rfl⟩
  | (k, v) :: es, h => by
    obtain ⟨t, ht⟩ := h (k, v) (by simp)
    obtain ⟨ts, hts⟩ := printEnts_ok es fun y hy => h y (by simp [hy])
    exact ⟨_, by unfold printEnts; rw [show printObj v = _ from ht, hts]; rfl⟩

theorem printImageEnts_ok : ∀ es : List (Bytes × Obj), (∀ e ∈ es, ∃ t, printObj e.2 = .ok t) → ∃ ts, printImageEnts es = .ok ts
  | [], _ => ⟨[], rfl⟩
  | (k, v) :: es, h => by
    obtain ⟨t, ht⟩ := h (k, v) (by simp)
    obtain ⟨ts, hts⟩ := printImageEnts_ok es fun y hy => h y (by simp [hy])
    unfold printImageEnts
    by_cases c : k = b!"F" ∨ k = b!"Filter"
    · rw [if_pos c]; exact ⟨_, hts⟩
    · rw [if_neg c, show printObj v = _ from ht, hts]; exact ⟨_, rfl⟩

theorem plain_prints {o : Obj} (h : Plain o) : ∃ t, printObj o = .ok t := by
  induction h with
  | null => exact ⟨_, rfl⟩
  | bool b => exact ⟨_, rfl⟩
  | int n => exact ⟨_, rfl⟩
  | real c e => exact ⟨_, rfl⟩
  | name n => exact ⟨_, rfl⟩
  | str s => exact ⟨_, rfl⟩
  | hex s => exact ⟨_, rfl⟩
  | token t => exact ⟨_, rfl⟩
  | arr xs _ ih =>
    obtain ⟨ts, h⟩ := printObjs_ok xs ih
    exact ⟨_, by unfold printObj; rw [h]; rfl⟩
  | dict es _ ih =>
    obtain ⟨ts, h⟩ := printEnts_ok es ih
    exact ⟨_, by unfold printObj; rw [h]; rfl⟩

theorem resMap_ok {α β : Type} (f : α → Res β) : ∀ xs : List α, (∀ x ∈ xs, ∃ t, f x = .ok t) → ∃ ts, resMap f xs = .ok ts
  | [], _ => ⟨[], rfl⟩
  | x :: xs, h => by
    obtain ⟨t, ht⟩ := h x (by simp)
    obtain ⟨ts, hts⟩ := resMap_ok f xs fun y hy => h y (by simp [hy])
    exact ⟨t :: ts, by unfold resMap; rw [ht, hts]; rfl⟩

theorem printOp_ok (name : Bytes) {args : List Arg} (h : ∀ a ∈ args, ∃ t, printArg a = .ok t) : ∃ t, printOp name args = .ok t := by
  obtain ⟨ts, hts⟩ := resMap_ok printArg args h
  exact ⟨_, by unfold printOp; rw [hts]; rfl⟩

theorem b85_ascii (i : Nat) : (b85Alphabet.getD i 0).toNat < 128 := by
  by_cases h : i < 85
  · have key : ∀ i : Fin 85, (b85Alphabet.getD i.val 0).toNat < 128 := by decide +kernel
    exact key ⟨i, h⟩
  · have : b85Alphabet.length ≤ i := by
      have : b85Alphabet.length = 85 := rfl
      omega
    rw [List.getD_eq_getElem?_getD, List.getElem?_eq_none this]
    decide

theorem b85Word_ascii (w : Nat) : ∀ c ∈ b85Word w, c.toNat < 128 := by
  intro c hc
  unfold b85Word at hc
  simp only [List.mem_cons, List.not_mem_nil, or_false] at hc
  rcases hc with rfl | rfl | rfl | rfl | rfl <;> exact b85_ascii _

theorem b85encode_ascii : ∀ s : Bytes, ∀ c ∈ b85encode s, c.toNat < 128
  | [], c, h => by cases h
  | [a], c, h => b85Word_ascii _ c (List.mem_of_mem_take h)
  | [a, b], c, h => b85Word_ascii _ c (List.mem_of_mem_take h)
  | [a, b, d], c, h => b85Word_ascii _ c (List.mem_of_mem_take h)
  | a :: b :: d :: e :: r, c, h => by
    unfold b85encode at h
    rcases List.mem_append.mp h with h | h
    · exact b85Word_ascii _ c h
    · exact b85encode_ascii r c h

theorem asciiFilter_name {f : Obj} (h : isAsciiFilter f = true) : ∃ n, n ∈ [b!"ASCIIHexDecode", b!"AHx", b!"ASCII85Decode", b!"A85"] ∧ (f = .name n ∨ f = .hex n ∨ f = .token n) := by
  unfold isAsciiFilter at h
  split at h
  · exact ⟨_, of_decide_eq_true h, .inl rfl⟩
  · exact ⟨_, of_decide_eq_true h, .inr (.inl rfl)⟩
  · exact ⟨_, of_decide_eq_true h, .inr (.inr rfl)⟩
  · cases h

theorem ascii_coded {d : List (Bytes × Obj)} {f : Obj} {fs : List Obj} (hl : filterList (imageEntry d b!"Filter" b!"F") = f :: fs) (h : isAsciiFilter f = true) : AsciiCoded d := by
  obtain ⟨n, hn, hf⟩ := asciiFilter_name h
  have key : ∀ o : Obj, filterList o = f :: fs → o = f ∨ ∃ rest, o = .arr (f :: rest) := by
    intro o ho
    cases o with
    | arr xs => exact .inr ⟨fs, by rw [show xs = f :: fs from ho]⟩
    | _ => exact .inl (List.cons.inj ho).1
  have short : filterList ((dictGet d b!"F").getD .null) = f :: fs → AsciiCoded d := by
    intro ho
    cases hd : dictGet d b!"F" with
    | none =>
      rw [hd] at ho
      have : Obj.null = f := (List.cons.inj ho).1
      rcases hf with rfl | rfl | rfl <;> cases this
    | some o =>
      rw [hd] at ho
      refine ⟨n, f, b!"F", hn, hf, by simp, ?_⟩
      rcases key o ho with rfl | ⟨rest, rfl⟩
      · exact .inl hd
      · exact .inr ⟨rest, hd⟩
  unfold imageEntry at hl
  split at hl
  · rename_i o hd
    split at hl
    · refine ⟨n, f, b!"Filter", hn, hf, by simp, ?_⟩
      rcases key o hl with rfl | ⟨rest, rfl⟩
      · exact .inl hd
      · exact .inr ⟨rest, hd⟩
    · exact short hl
  · exact short hl

theorem plainImage_prints {d : List (Bytes × Obj)} {data : Bytes} (h : PlainImage d data) : ∃ t, printObj (.image d data) = .ok t := by
  obtain ⟨h1, h2, h3⟩ := h
  obtain ⟨ts, hts⟩ := printImageEnts_ok d fun e he => plain_prints (h1 e he)
  unfold printObj
  rw [hts]
  dsimp only
  unfold imageTail
  have hf : filterList (imageEntry d b!"Filter" b!"F") ≠ [] := by
    have hs : filterList ((dictGet d b!"F").getD .null) ≠ [] := by
      cases hd : dictGet d b!"F" with
      | none => intro h; cases h
      | some o =>
        intro h
        cases o with
        | arr xs =>
          have : xs = [] := h
          subst this
          exact h2 hd
        | _ => cases h
    unfold imageEntry
    split
    · split
      · rename_i o _ ht
        cases o with
        | arr xs =>
          cases xs with
          | nil => cases ht
          | cons x xs => intro h; cases h
        | _ => intro h; cases h
      · exact hs
    · exact hs
  cases hl : filterList (imageEntry d b!"Filter" b!"F") with
  | nil => exact absurd hl hf
  | cons f fs =>
    dsimp only
    have : ((if isAsciiFilter f = true then data else b85encode data ++ b!"~>").all fun c => decide (c.toNat < 128)) = true := by
      rw [List.all_eq_true]
      intro c hc
      rw [decide_eq_true_eq]
      split at hc
      · exact h3 (ascii_coded hl ‹_›) c hc
      · rcases List.mem_append.mp hc with hc | hc
        · exact b85encode_ascii data c hc
        · simp only [List.mem_cons, List.not_mem_nil, or_false] at hc
          rcases hc with rfl | rfl <;> decide
    rw [if_pos this]
    exact ⟨_, rfl⟩

/-! ### Operators -/

/-- The computation succeeds, leads from one stack of fonts to another and leaves the strings and inline images of the canvas alone. -/
def Goes {α : Type} (res : Resources) (fs fs' : List (Option Bytes)) (m : DM Paint α) (a : α) : Prop :=
  ∀ p, PaintInv res fs p → ∃ p', m p = (.ok a, p') ∧ PaintInv res fs' p' ∧ p'.canvas.strings = p.canvas.strings ∧ p'.canvas.inline = p.canvas.inline

theorem goes_pure {α : Type} {res : Resources} {fs : List (Option Bytes)} (a : α) : Goes res fs fs (DM.pure (.ok a)) a := fun p h => ⟨p, rfl, h, rfl, rfl⟩

theorem goes_bind {α β : Type} {res : Resources} {fs fs1 fs2 : List (Option Bytes)} {m : DM Paint α} {f : α → DM Paint β} {a : α} {b : β} (h1 : Goes res fs fs1 m a)
    (h2 : Goes res fs1 fs2 (f a) b) : Goes res fs fs2 (m.bind f) b := by
  intro p hp
  obtain ⟨p1, e1, i1, s1, t1⟩ := h1 p hp
  obtain ⟨p2, e2, i2, s2, t2⟩ := h2 p1 i1
  exact ⟨p2, by rw [DM.bind_eq e1, e2], i2, s2.trans s1, t2.trans t1⟩

theorem goes_addText {res : Resources} {fs : List (Option Bytes)} {r : Res Text} (h : ∃ t, r = .ok t) : Goes res fs fs (addText r) () := by
  obtain ⟨t, rfl⟩ := h
  exact fun p hp => ⟨_, rfl, ⟨hp.fonts, hp.copies, hp.decoders⟩, rfl, rfl⟩

theorem goes_setField {res : Resources} {f : Option Bytes} {fs : List (Option Bytes)} (k : Bytes) (o : Obj) (f' : Option Bytes)
    (h : ∀ g, fontKey g = .ok f → fontKey (assocSet k (.atom o) g) = .ok f') : Goes res (f :: fs) (f' :: fs) (setField k (.atom o)) () := by
  intro p hp
  obtain ⟨g, gs, he, hk, ht⟩ := paint_head hp
  obtain ⟨g', gs', he', e⟩ := setField_ok k (.atom o) p
  rw [he] at he'
  injection he' with h1 h2
  subst h1
  subst h2
  refine ⟨_, e, ⟨?_, ?_, hp.decoders⟩, rfl, rfl⟩
  · show (ensureState (assocSet k (.atom o) g :: gs)).map fontKey = _
    rw [ensure_of_ne (by simp), List.map_cons, List.map_cons, h g hk, ht]
  · have hc := (ensure_inv hp).copies
    have hc' : ∀ g0 ∈ g :: gs, ∀ e ∈ g0, copyable e.2 = true := by
      intro g0 h0
      exact hc g0 (by show g0 ∈ ensureState p.gss; rw [he]; exact h0)
    intro g0 h0
    rcases List.mem_cons.mp h0 with rfl | h0
    · have hg := hc' g (by simp)
      have : ∀ (es : GState), (∀ e ∈ es, copyable e.2 = true) → ∀ e ∈ assocSet k (.atom o) es, copyable e.2 = true := by
        intro es
        induction es with
        | nil =>
          intro _ e he
          unfold assocSet at he
          rw [List.mem_singleton] at he
          subst he
          rfl
        | cons e0 es ih =>
          obtain ⟨k0, v0⟩ := e0
          intro hall e he
          unfold assocSet at he
          split at he
          · rcases List.mem_cons.mp he with rfl | he
            · rfl
            · exact hall e (by simp [he])
          · rcases List.mem_cons.mp he with rfl | he
            · exact hall _ (by simp)
            · exact ih (fun e he => hall e (by simp [he])) e he
      exact this g hg
    · exact hc' g0 (by simp [h0])

theorem fontKey_set {k : Bytes} (hk : k ≠ b!"Font") (v : Val) (g : GState) : fontKey (assocSet k v g) = fontKey g := by
  unfold fontKey
  rw [assoc_set, if_neg hk]

theorem goes_field {res : Resources} {f : Option Bytes} {fs : List (Option Bytes)} {k : Bytes} (hk : k ≠ b!"Font") (o : Obj) :
    Goes res (f :: fs) (f :: fs) (setField k (.atom o)) () := goes_setField k o f fun g hg => by rw [fontKey_set hk]; exact hg

theorem goes_font {res : Resources} {f : Option Bytes} {fs : List (Option Bytes)} (n : Bytes) (size : Obj) :
    Goes res (f :: fs) (some n :: fs) (setField b!"Font" (.atom (.arr [.name n, size]))) () :=
  goes_setField b!"Font" _ (some n) fun g _ => by
    unfold fontKey
    rw [assoc_set, if_pos rfl]
    rfl

theorem goes_save {res : Resources} {f : Option Bytes} {fs : List (Option Bytes)} : Goes res (f :: fs) (f :: f :: fs) saveState () := by
  intro p hp
  obtain ⟨g, gs, he, hk, ht⟩ := paint_head hp
  have hc : ∀ g0 ∈ g :: gs, ∀ e ∈ g0, copyable e.2 = true := by
    intro g0 h0
    exact (ensure_inv hp).copies g0 (by show g0 ∈ ensureState p.gss; rw [he]; exact h0)
  unfold saveState
  rw [he]
  dsimp only
  rw [if_pos (by rw [List.all_eq_true]; exact hc g (by simp))]
  refine ⟨_, rfl, ⟨?_, ?_, hp.decoders⟩, rfl, rfl⟩
  · show (ensureState (g :: g :: gs)).map fontKey = _
    rw [ensure_of_ne (by simp), List.map_cons, List.map_cons, List.map_cons, List.map_cons, hk, ht]
  · intro g0 h0
    rcases List.mem_cons.mp h0 with rfl | h0
    · exact hc g0 (by simp)
    · exact hc g0 h0

theorem goes_restore {res : Resources} {f g : Option Bytes} {fs : List (Option Bytes)} : Goes res (g :: f :: fs) (f :: fs) restoreState () := by
  intro p hp
  have hne : p.gss ≠ [] := by
    intro h
    have := hp.fonts
    rw [h] at this
    have := congrArg List.length this
    simp [ensureState] at this
  have hf := hp.fonts
  rw [ensure_of_ne hne] at hf
  cases hg : p.gss with
  | nil => exact absurd hg hne
  | cons a as =>
    rw [hg] at hf
    injection hf with h1 h2
    cases as with
    | nil => cases h2
    | cons b bs =>
      refine ⟨_, rfl, ⟨?_, ?_, hp.decoders⟩, rfl, rfl⟩
      · show (ensureState p.gss.tail).map fontKey = _
        rw [hg]
        show (ensureState (b :: bs)).map fontKey = _
        rw [ensure_of_ne (by simp)]
        exact h2
      · intro g0 h0
        refine hp.copies g0 (List.mem_of_mem_tail h0)

theorem goes_keep {res : Resources} {fs fs' : List (Option Bytes)} {m : DM Paint Unit} (args : List Obj) (h : Goes res fs fs' m ()) :
    Goes res fs fs' (keep args m) (args.map .obj) := goes_bind h (goes_pure _)

theorem plain_args {args : List Obj} (h : ∀ o ∈ args, Plain o) (name : Bytes) : ∃ t, printOp name (args.map .obj) = .ok t := by
  refine printOp_ok name fun a ha => ?_
  rw [List.mem_map] at ha
  obtain ⟨o, ho, rfl⟩ := ha
  exact plain_prints (h o ho)

/-- The operators of PDF are not mistaken for other handlers. -/
theorem operator_facts : ∀ name ∈ operators, name ∉ special →
    (aliasOf name ∉ [b!"q", b!"Q", b!"gs", b!"Tf", b!"Tj", b!"apostrophe", b!"TJ", b!"quotation", b!"DP", b!"BDC", b!"Do", b!"inline_image", b!"document_load",
      b!"navigate", b!"handler"]) ∧ (aliasOf name ∈ unary → name ∈ unary) := by decide +kernel

/-- As `Goes`, but strings and inline images are added. -/
def Puts {α : Type} (res : Resources) (fs fs' : List (Option Bytes)) (us : List Text) (im : List Content) (m : DM Paint α) (a : α) : Prop :=
  ∀ p, PaintInv res fs p → ∃ p', m p = (.ok a, p') ∧ PaintInv res fs' p' ∧ p'.canvas.strings = p.canvas.strings ++ us ∧ p'.canvas.inline = p.canvas.inline ++ im

theorem puts_of_goes {α : Type} {res : Resources} {fs fs' : List (Option Bytes)} {m : DM Paint α} {a : α} (h : Goes res fs fs' m a) : Puts res fs fs' [] [] m a := by
  intro p hp
  obtain ⟨p', e, i, s, t⟩ := h p hp
  exact ⟨p', e, i, by rw [s, List.append_nil], by rw [t, List.append_nil]⟩

theorem puts_bind {α β : Type} {res : Resources} {fs fs1 fs2 : List (Option Bytes)} {us vs : List Text} {im jm : List Content} {m : DM Paint α} {f : α → DM Paint β} {a : α} {b : β}
    (h1 : Puts res fs fs1 us im m a) (h2 : Puts res fs1 fs2 vs jm (f a) b) : Puts res fs fs2 (us ++ vs) (im ++ jm) (m.bind f) b := by
  intro p hp
  obtain ⟨p1, e1, i1, s1, t1⟩ := h1 p hp
  obtain ⟨p2, e2, i2, s2, t2⟩ := h2 p1 i1
  exact ⟨p2, by rw [DM.bind_eq e1, e2], i2, by rw [s2, s1, List.append_assoc], by rw [t2, t1, List.append_assoc]⟩

theorem puts_then {α β : Type} {res : Resources} {fs fs1 fs2 : List (Option Bytes)} {us : List Text} {im : List Content} {m : DM Paint α} {f : α → DM Paint β} {a : α} {b : β}
    (h1 : Puts res fs fs1 us im m a) (h2 : Goes res fs1 fs2 (f a) b) : Puts res fs fs2 us im (m.bind f) b := by
  have := puts_bind h1 (puts_of_goes h2)
  rwa [List.append_nil, List.append_nil] at this

theorem puts_after {α β : Type} {res : Resources} {fs fs1 fs2 : List (Option Bytes)} {us : List Text} {im : List Content} {m : DM Paint α} {f : α → DM Paint β} {a : α} {b : β}
    (h1 : Goes res fs fs1 m a) (h2 : Puts res fs1 fs2 us im (f a) b) : Puts res fs fs2 us im (m.bind f) b := puts_bind (puts_of_goes h1) h2

/-- An operator with a handler of its own name only. -/
theorem puts_notifyOp {h : Host} {res : Resources} {onDo : List Obj → DM Paint Unit} {onNav : DM Paint Unit} {name : Bytes} {args : List Obj} {fs fs' : List (Option Bytes)}
    {us : List Text} {im : List Content} {shown : List Arg} (h1 : aliasOf name ≠ b!"Do") (h2 : aliasOf name ≠ b!"navigate") (h3 : aliasOf name ≠ b!"handler")
    (ho : Puts res fs fs' us im (onOperator h res onDo (aliasOf name) args) shown) (hp : ∃ t, printOp name shown = .ok t) :
    Puts res fs fs' us im (notifyOp h res onDo onNav name args) () := by
  unfold notifyOp
  rw [if_neg h1]
  refine puts_after (goes_pure ()) (puts_then ho ?_)
  rw [if_neg h1, if_neg h2, if_neg h3]
  exact goes_bind (goes_pure ()) (goes_addText hp)

/-- The computation succeeds and changes only the font of the current state. -/
def Leaves (res : Resources) (fs fs' : List (Option Bytes)) (m : DM Paint Unit) : Prop :=
  ∀ p, PaintInv res fs p → ∃ f' p', m p = (.ok (), p') ∧ PaintInv res (f' :: fs') p' ∧ p'.canvas.strings = p.canvas.strings ∧ p'.canvas.inline = p.canvas.inline

theorem leaves_of_goes {res : Resources} {fs fs' : List (Option Bytes)} {f : Option Bytes} {m : DM Paint Unit} (h : Goes res fs (f :: fs') m ()) : Leaves res fs fs' m := by
  intro p hp
  obtain ⟨p', h⟩ := h p hp
  exact ⟨f, p', h⟩

theorem goes_leaves {β : Type} {res : Resources} {fs fs1 fs2 : List (Option Bytes)} {m : DM Paint Unit} {f : Unit → DM Paint β} {b : β} (h1 : Leaves res fs fs1 m)
    (h2 : ∀ f', Goes res (f' :: fs1) fs2 (f ()) b) : Goes res fs fs2 (m.bind f) b := by
  intro p hp
  obtain ⟨f', p1, e1, i1, s1, t1⟩ := h1 p hp
  obtain ⟨p2, e2, i2, s2, t2⟩ := h2 f' p1 i1
  exact ⟨p2, by rw [DM.bind_eq e1, e2], i2, s2.trans s1, t2.trans t1⟩

theorem dm_assoc {σ α β γ : Type} (m : DM σ α) (f : α → DM σ β) (g : β → DM σ γ) : (m.bind f).bind g = m.bind fun a => (f a).bind g := by
  funext s
  unfold DM.bind
  cases h : m s with
  | mk r s1 => cases r <;> rfl

theorem puts_notifyDo {h : Host} {res : Resources} {onDo : List Obj → DM Paint Unit} {onNav : DM Paint Unit} {args : List Obj} {f : Option Bytes} {fs : List (Option Bytes)}
    (ho : Leaves res (f :: f :: fs) (f :: fs) (onDo args)) (hp : ∀ o ∈ args, Plain o) :
    Goes res (f :: fs) (f :: fs) (notifyOp h res onDo onNav b!"Do" args) () := by
  unfold notifyOp
  have hd : aliasOf b!"Do" = b!"Do" := by decide
  rw [hd, if_pos rfl]
  refine goes_bind goes_save ?_
  have he : onOperator h res onDo b!"Do" args = keep args (onDo args) := rfl
  rw [he]
  unfold keep
  rw [dm_assoc]
  refine goes_leaves ho fun f' => goes_bind (goes_pure _) ?_
  rw [if_pos rfl]
  exact goes_bind goes_restore (goes_addText (plain_args hp _))

theorem goes_first {res : Resources} {f : Option Bytes} {fs : List (Option Bytes)} {k : Bytes} (hk : k ≠ b!"Font") {args : List Obj} (ha : args ≠ []) :
    Goes res (f :: fs) (f :: fs) (keep args ((DM.pure (arg0 args)).bind fun o => setField k (.atom o))) (args.map .obj) := by
  cases args with
  | nil => exact absurd rfl ha
  | cons o os => exact goes_keep _ (goes_bind (goes_pure o) (goes_field hk o))

theorem goes_ite {α : Type} {res : Resources} {fs fs' : List (Option Bytes)} {c : Prop} [Decidable c] {m n : DM Paint α} {a : α} (h1 : c → Goes res fs fs' m a)
    (h2 : ¬ c → Goes res fs fs' n a) : Goes res fs fs' (if c then m else n) a := by
  split
  · exact h1 (by assumption)
  · exact h2 (by assumption)

/-- Operators which do not concern fonts and strings. -/
theorem goes_other {h : Host} {res : Resources} {onDo : List Obj → DM Paint Unit} {name : Bytes} {args : List Obj} {f : Option Bytes} {fs : List (Option Bytes)}
    (h1 : name ∉ [b!"q", b!"Q", b!"gs", b!"Tf", b!"Tj", b!"apostrophe", b!"TJ", b!"quotation", b!"DP", b!"BDC", b!"Do", b!"inline_image", b!"document_load",
      b!"navigate", b!"handler"]) (h2 : name ∈ unary → args ≠ []) : Goes res (f :: fs) (f :: fs) (onOperator h res onDo name args) (args.map .obj) := by
  simp only [List.mem_cons, List.not_mem_nil, or_false, not_or] at h1
  obtain ⟨a1, a2, a3, a4, a5, a6, a7, a8, a9, a10, a11, a12, a13, a14, a15⟩ := h1
  unfold onOperator
  have un : ∀ n : Bytes, n ∈ unary → name = n → args ≠ [] := fun n hn e => h2 (e ▸ hn)
  rw [if_neg a1, if_neg a2]
  refine goes_ite (fun _ => goes_keep args (goes_field (by decide) _)) fun _ => ?_
  refine goes_ite (fun e => goes_first (by decide) (un _ (by decide) e)) fun _ => ?_
  refine goes_ite (fun e => goes_first (by decide) (un _ (by decide) e)) fun _ => ?_
  refine goes_ite (fun e => goes_first (by decide) (un _ (by decide) e)) fun _ => ?_
  refine goes_ite (fun e => goes_first (by decide) (un _ (by decide) e)) fun _ => ?_
  refine goes_ite (fun _ => goes_keep args (goes_field (by decide) _)) fun _ => ?_
  refine goes_ite (fun e => goes_first (by decide) (un _ (by decide) e)) fun _ => ?_
  refine goes_ite (fun e => goes_first (by decide) (un _ (by decide) e)) fun _ => ?_
  rw [if_neg a3]
  refine goes_ite (fun _ => goes_keep args fun p hp => ⟨_, rfl, ⟨hp.fonts, hp.copies, hp.decoders⟩, rfl, rfl⟩) fun _ => ?_
  refine goes_ite (fun _ => goes_keep args fun p hp => ⟨_, rfl, ⟨hp.fonts, hp.copies, hp.decoders⟩, rfl, rfl⟩) fun _ => ?_
  rw [if_neg a4, if_neg (fun h => h.elim a5 a6), if_neg (fun h => h.elim a7 a8), if_neg (fun h => h.elim a9 a10), if_neg a11,
    if_neg a12, if_neg a13]
  exact goes_keep args (goes_pure ())

theorem puts_decode {h : Host} {res : Resources} (hn : Named res) {f : Option Bytes} {fs : List (Option Bytes)} {o : Obj} {t : Text} (hd : decoding h.decode res f o = some t) :
    Goes res (f :: fs) (f :: fs) (decodeString h res o) t := by
  intro p hp
  obtain ⟨p', e, i, c⟩ := decodeString_good hn hp hd
  exact ⟨p', e, i, by rw [c], by rw [c]⟩

theorem puts_addString {res : Resources} {fs : List (Option Bytes)} (t : Text) : Puts res fs fs [t] [] (addString t) () :=
  fun p hp => ⟨_, rfl, ⟨hp.fonts, hp.copies, hp.decoders⟩, rfl, (List.append_nil _).symm⟩

theorem puts_showOne {h : Host} {res : Resources} (hn : Named res) {f : Option Bytes} {fs : List (Option Bytes)} {o : Obj} {t : Text}
    (hd : decoding h.decode res f o = some t) : Puts res (f :: fs) (f :: fs) [t] [] (showOne h res [o]) [.text (quoted t)] :=
  puts_after (goes_pure o) (puts_after (puts_decode hn hd) (puts_then (puts_addString t) (goes_pure _)))

theorem puts_showEach {h : Host} {res : Resources} (hn : Named res) {f : Option Bytes} {fs : List (Option Bytes)} {xs : List Obj} {us : List Text}
    (ht : TextsOf (decoding h.decode res f) xs us) (hp : ∀ x ∈ xs, Plain x) :
    ∃ r, Puts res (f :: fs) (f :: fs) us [] (showEach h res xs) r ∧ ∀ x ∈ r, ∃ t, printPart x = .ok t := by
  induction ht with
  | nil => exact ⟨[], puts_of_goes (goes_pure _), fun x hx => by cases hx⟩
  | string o t os ts hs hd _ ih =>
    obtain ⟨r, i, j⟩ := ih fun x hx => hp x (by simp [hx])
    refine ⟨.inl (quoted t) :: r, ?_, ?_⟩
    · rcases hs with ⟨s, rfl⟩ | ⟨s, rfl⟩
      · exact puts_after (puts_decode hn hd) (puts_bind (puts_addString t) (puts_then i (goes_pure _)))
      · exact puts_after (puts_decode hn hd) (puts_bind (puts_addString t) (puts_then i (goes_pure _)))
    · intro x hx
      rcases List.mem_cons.mp hx with rfl | hx
      · exact ⟨_, rfl⟩
      · exact j x hx
  | other o os ts h1 h2 _ ih =>
    obtain ⟨r, i, j⟩ := ih fun x hx => hp x (by simp [hx])
    refine ⟨.inr o :: r, ?_, ?_⟩
    · have : showEach h res (o :: os) = (showEach h res os).bind fun r => DM.pure (.ok (.inr o :: r)) := by
        cases o with
        | str s => exact absurd rfl (h1 s)
        | hex s => exact absurd rfl (h2 s)
        | _ => rfl
      rw [this]
      exact puts_then i (goes_pure _)
    · intro x hx
      rcases List.mem_cons.mp hx with rfl | hx
      · exact plain_prints (hp o (by simp))
      · exact j x hx

theorem goes_decodeProps {h : Host} {res : Resources} (hn : Named res) {f : Option Bytes} {fs : List (Option Bytes)} {tag props : Obj} (h1 : Plain tag) (h2 : Plain props)
    (hd : ∀ es s, props = .dict es → dictGet es b!"Contents" = some (.str s) → ∃ t, decoding h.decode res f (.str s) = some t) :
    ∃ r, Goes res (f :: fs) (f :: fs) (decodeProps h res [tag, props]) r ∧ ∀ a ∈ r, ∃ t, printArg a = .ok t := by
  have plain : ∀ a ∈ [tag, props].map Arg.obj, ∃ t, printArg a = .ok t := by
    intro a ha
    rw [List.mem_map] at ha
    obtain ⟨o, ho, rfl⟩ := ha
    simp only [List.mem_cons, List.not_mem_nil, or_false] at ho
    rcases ho with rfl | rfl
    · exact plain_prints h1
    · exact plain_prints h2
  by_cases hc : ∃ es s, props = .dict es ∧ dictGet es b!"Contents" = some (.str s)
  · obtain ⟨es, s, rfl, hs⟩ := hc
    obtain ⟨t, ht⟩ := hd es s rfl hs
    refine ⟨[.obj tag, .props (putContents es t)], ?_, ?_⟩
    · have : decodeProps h res [tag, .dict es] = (decodeString h res (.str s)).bind fun t => DM.pure (.ok [.obj tag, .props (putContents es t)]) := by
        unfold decodeProps
        dsimp only
        rw [hs]
      rw [this]
      exact goes_bind (puts_decode hn ht) (goes_pure _)
    · intro a ha
      simp only [List.mem_cons, List.not_mem_nil, or_false] at ha
      rcases ha with rfl | rfl
      · exact plain_prints h1
      · have : ∃ ts, resMap (fun e : Bytes × (Text ⊕ Obj) => (printPart e.2).map fun t => 47 :: asc e.1 ++ 32 :: t) (putContents es t) = .ok ts := by
          refine resMap_ok _ _ fun e he => ?_
          unfold putContents at he
          rw [List.mem_map] at he
          obtain ⟨e0, h0, rfl⟩ := he
          split
          · exact ⟨_, rfl⟩
          · cases h2 with
            | dict _ hall =>
              obtain ⟨u, hu⟩ := plain_prints (hall e0 h0)
              exact ⟨_, by show (printObj e0.2).map _ = _; rw [hu]; rfl⟩
        obtain ⟨ts, hts⟩ := this
        exact ⟨_, by unfold printArg; dsimp only; rw [hts]; rfl⟩
  · refine ⟨[tag, props].map .obj, ?_, plain⟩
    have : decodeProps h res [tag, props] = DM.pure (.ok ([tag, props].map .obj)) := by
      cases props with
      | dict es =>
        unfold decodeProps
        dsimp only
        cases hg : dictGet es b!"Contents" with
        | none => rfl
        | some o =>
          cases o with
          | str s => exact absurd ⟨es, s, rfl, hg⟩ hc
          | _ => rfl
      | _ => rfl
    rw [this]
    exact goes_pure _

theorem puts_step {h : Host} {res : Resources} {onDo : List Obj → DM Paint Unit} {onNav : DM Paint Unit} {name : Bytes} {args : List Obj} {cs : List Content}
    {fs fs1 fs2 : List (Option Bytes)} {us ts : List Text} (h1 : Puts res fs fs1 us [] (notifyOp h res onDo onNav name args) ())
    (h2 : Puts res fs1 fs2 ts (imagesOf cs) (notifyAll h res onDo onNav cs) ()) :
    Puts res fs fs2 (us ++ ts) (imagesOf (.op name args :: cs)) (notifyAll h res onDo onNav (.op name args :: cs)) () := puts_bind h1 h2

theorem puts_cons {α : Type} {res : Resources} {fs fs' : List (Option Bytes)} {us : List Text} {im : List Content} {m : DM Paint α} {a : α}
    (h : ∀ f fs0, fs = f :: fs0 → Puts res fs fs' us im m a) : Puts res fs fs' us im m a := by
  intro p hp
  obtain ⟨f, fs0, e⟩ := paint_cons hp
  exact h f fs0 e p hp

/-- What a content shows is put on the canvas. -/
theorem shows_puts {h : Host} {res : Resources} (hn : Named res) {onDo : List Obj → DM Paint Unit} {onNav : DM Paint Unit} {doOk : Option Bytes → List Obj → Prop} {gsOk : List Obj → Prop}
    (hdo : ∀ f fs args, doOk f args → Leaves res (f :: f :: fs) (f :: fs) (onDo args))
    (hgs : ∀ f fs args, gsOk args → Goes res (f :: fs) (f :: fs) (applyGs h res args) ())
    {fs fs' : List (Option Bytes)} {cs : List Content} {ts : List Text} (hs : Shows (decoding h.decode res) doOk gsOk fs cs fs' ts) :
    Puts res fs fs' ts (imagesOf cs) (notifyAll h res onDo onNav cs) () := by
  induction hs with
  | nil fs => exact puts_of_goes (goes_pure ())
  | image d data fs fs' cs ts hi _ ih =>
    refine puts_bind (us := []) (im := [.image d data]) (a := ()) ?_ ih
    intro p hp
    obtain ⟨t, ht⟩ := plainImage_prints hi
    unfold notifyImage
    rw [ht]
    exact ⟨_, rfl, ⟨hp.fonts, hp.copies, hp.decoders⟩, (List.append_nil _).symm, rfl⟩
  | save args f fs fs' cs ts hp _ ih =>
    exact puts_step (us := []) (ts := ts) (puts_notifyOp (by decide) (by decide) (by decide) (puts_of_goes (goes_keep args goes_save)) (plain_args hp _)) ih
  | restore args f g fs fs' cs ts hp _ ih =>
    exact puts_step (us := []) (ts := ts) (puts_notifyOp (by decide) (by decide) (by decide) (puts_of_goes (goes_keep args goes_restore)) (plain_args hp _)) ih
  | font n size f fs fs' cs ts hp _ ih =>
    refine puts_step (us := []) (ts := ts) (puts_notifyOp (by decide) (by decide) (by decide) (puts_of_goes (goes_keep _ (goes_font n size))) (plain_args ?_ _)) ih
    intro o ho
    simp only [List.mem_cons, List.not_mem_nil, or_false] at ho
    rcases ho with rfl | rfl
    · exact .name n
    · exact hp
  | one name o t f fs fs' cs ts hname hd _ ih =>
    have hprint : ∀ name, ∃ u, printOp name [.text (quoted t)] = .ok u := fun name => ⟨_, rfl⟩
    rcases hname with rfl | rfl
    · exact puts_step (us := [t]) (ts := ts) (puts_notifyOp (by decide) (by decide) (by decide) (puts_showOne hn hd) (hprint _)) ih
    · exact puts_step (us := [t]) (ts := ts) (puts_notifyOp (by decide) (by decide) (by decide) (puts_showOne hn hd) (hprint _)) ih
  | many xs us f fs fs' cs ts hp ht _ ih =>
    obtain ⟨r, i, j⟩ := puts_showEach (h := h) hn (fs := fs) ht hp
    have hm : Puts res (f :: fs) (f :: fs) us [] (showMany h res [.arr xs]) [.list r] := by
      unfold showMany
      have e1 : arg0 [.arr xs] = .ok (.arr xs) := rfl
      rw [e1]
      exact puts_after (goes_pure (Obj.arr xs)) (puts_then i (goes_pure _))
    refine puts_step (us := us) (ts := ts) (puts_notifyOp (by decide) (by decide) (by decide) hm (printOp_ok _ ?_)) ih
    intro a ha
    rw [List.mem_singleton] at ha
    subst ha
    obtain ⟨ts, hts⟩ := resMap_ok printPart r j
    exact ⟨_, by unfold printArg; dsimp only; rw [hts]; rfl⟩
  | xobject args f fs fs' cs ts hp hok _ ih =>
    exact puts_step (us := []) (ts := ts) (puts_of_goes (puts_notifyDo (hdo f fs args hok) hp)) ih
  | state args fs fs' cs ts hp hok _ ih =>
    refine puts_cons fun f fs0 e => ?_
    subst e
    exact puts_step (us := []) (ts := ts) (puts_notifyOp (by decide) (by decide) (by decide) (puts_of_goes (goes_keep args (hgs f fs0 args hok))) (plain_args hp _)) ih
  | marked name tag props f fs fs' cs ts hname h1 h2 hd _ ih =>
    obtain ⟨r, i, j⟩ := goes_decodeProps (h := h) hn (fs := fs) h1 h2 hd
    rcases hname with rfl | rfl
    · exact puts_step (us := []) (ts := ts) (puts_notifyOp (by decide) (by decide) (by decide) (puts_of_goes i) (printOp_ok _ j)) ih
    · exact puts_step (us := []) (ts := ts) (puts_notifyOp (by decide) (by decide) (by decide) (puts_of_goes i) (printOp_ok _ j)) ih
  | other name args fs fs' cs ts h1 h2 h3 hp _ ih =>
    refine puts_cons fun f fs0 e => ?_
    subst e
    obtain ⟨k1, k2⟩ := operator_facts name h1 h2
    refine puts_step (us := []) (ts := ts) (puts_notifyOp ?_ ?_ ?_ (puts_of_goes (goes_other k1 (fun hu => h3 (k2 hu)))) (plain_args hp _)) ih
    · intro e; rw [e] at k1; exact k1 (by decide)
    · intro e; rw [e] at k1; exact k1 (by decide)
    · intro e; rw [e] at k1; exact k1 (by decide)

/-! ### gs, Do and forms -/

theorem data_copyable {v : Val} (h : Data v) : copyable v = true := by
  induction h with
  | atom o => rfl
  | arr vs _ ih =>
    have : ∀ vs : List Val, (∀ v ∈ vs, copyable v = true) → copyables vs = true := by
      intro vs
      induction vs with
      | nil => exact fun _ => rfl
      | cons v vs ih =>
        intro h
        unfold copyables
        rw [h v (by simp), ih fun w hw => h w (by simp [hw])]
        rfl
    exact this vs ih

theorem assocSet_mem {k : Bytes} {v : Val} : ∀ {es : GState} {e : Bytes × Val}, e ∈ assocSet k v es → e = (k, v) ∨ e ∈ es
  | [], e, h => by
    unfold assocSet at h
    rw [List.mem_singleton] at h
    exact .inl h
  | (k0, v0) :: es, e, h => by
    unfold assocSet at h
    split at h
    · rcases List.mem_cons.mp h with rfl | h
      · exact .inl rfl
      · exact .inr (by simp [h])
    · rcases List.mem_cons.mp h with rfl | h
      · exact .inr (by simp)
      · rcases assocSet_mem h with h | h
        · exact .inl h
        · exact .inr (by simp [h])

theorem updateState_font {items : List (Bytes × Val)} (hf : assoc b!"Font" items = none) : ∀ (fields : List Bytes) (g : GState),
    fontKey (updateState items fields g) = fontKey g
  | [], g => rfl
  | k :: ks, g => by
    unfold updateState
    cases ha : assoc k items with
    | none => exact updateState_font hf ks g
    | some v =>
      have hk : k ≠ b!"Font" := by
        intro e
        rw [e, hf] at ha
        cases ha
      have hs : fontKey (updateState items ks (assocSet k v g)) = fontKey g := by rw [updateState_font hf ks, fontKey_set hk]
      split
      · cases ‹some v = none›
      · exact updateState_font hf ks g
      · rename_i w _ e
        cases e
        exact hs

theorem updateState_copies {items : List (Bytes × Val)} (hd : ∀ k w, assoc k items = some w → Data w) : ∀ (fields : List Bytes) (g : GState),
    (∀ e ∈ g, copyable e.2 = true) → ∀ e ∈ updateState items fields g, copyable e.2 = true
  | [], g, hg => hg
  | k :: ks, g, hg => by
    unfold updateState
    split
    · exact updateState_copies hd ks g hg
    · exact updateState_copies hd ks g hg
    · rename_i v _ hv
      refine updateState_copies hd ks _ fun e he => ?_
      rcases assocSet_mem he with rfl | he
      · exact data_copyable (hd _ _ hv)
      · exact hg e he

theorem goes_gs {h : Host} {res : Resources} (hn : Named res) (f : Option Bytes) (fs : List (Option Bytes)) (args : List Obj) (hg : PlainGs h res args) :
    Goes res (f :: fs) (f :: fs) (applyGs h res args) () := by
  obtain ⟨n, rest, rfl, hv⟩ := hg
  unfold applyGs
  have e1 : arg0 (.name n :: rest) = .ok (.name n) := rfl
  have e2 : strKey (.name n) = .ok (some n) := rfl
  rw [e1]
  refine goes_bind (goes_pure (Obj.name n)) ?_
  rw [e2]
  refine goes_bind (goes_pure (some n)) ?_
  rw [lookup_named hn (by simp)]
  refine goes_bind (goes_pure _) ?_
  cases hr : resource res b!"ExtGState" n with
  | none => exact goes_pure ()
  | some v =>
    dsimp only
    obtain ⟨cls, es, items, rfl, h1, h2, h3, h4, h5⟩ := hv v hr
    refine goes_ite (fun _ => ?_) fun _ => goes_pure ()
    intro p hp
    obtain ⟨g, gs, he, hk, ht⟩ := paint_head hp
    have hc : ∀ g0 ∈ g :: gs, ∀ e ∈ g0, copyable e.2 = true := by
      intro g0 h0
      exact (ensure_inv hp).copies g0 (by show g0 ∈ ensureState p.gss; rw [he]; exact h0)
    dsimp only
    rw [h1]
    dsimp only
    rw [h2, h3]
    dsimp only [Option.isSome]
    rw [he]
    refine ⟨_, rfl, ⟨?_, ?_, hp.decoders⟩, rfl, rfl⟩
    · show (ensureState (updateState items stateFields g :: gs)).map fontKey = _
      rw [ensure_of_ne (by simp), List.map_cons, updateState_font h4, hk, ht]
      rfl
    · intro g0 h0
      rcases List.mem_cons.mp h0 with rfl | h0
      · exact updateState_copies h5 _ _ (hc g (by simp))
      · exact hc g0 (by simp [h0])

/-- What is below on the stack does not matter. -/
theorem shows_frame {dec : Option Bytes → Obj → Option Text} {doOk : Option Bytes → List Obj → Prop} {gsOk : List Obj → Prop} {fs fs' : List (Option Bytes)} {cs : List Content}
    {ts : List Text} (hs : Shows dec doOk gsOk fs cs fs' ts) (ks : List (Option Bytes)) : Shows dec doOk gsOk (fs ++ ks) cs (fs' ++ ks) ts := by
  induction hs with
  | nil fs => exact .nil _
  | image d data fs fs' cs ts hi _ ih => exact .image d data _ _ _ _ hi ih
  | save args f fs fs' cs ts hp _ ih => exact .save args f _ _ _ _ hp ih
  | restore args f g fs fs' cs ts hp _ ih => exact .restore args f g _ _ _ _ hp ih
  | font n size f fs fs' cs ts hp _ ih => exact .font n size f _ _ _ _ hp ih
  | one name o t f fs fs' cs ts hname hd _ ih => exact .one name o t f _ _ _ _ hname hd ih
  | many xs us f fs fs' cs ts hp ht _ ih => exact .many xs us f _ _ _ _ hp ht ih
  | xobject args f fs fs' cs ts hp hok _ ih => exact .xobject args f _ _ _ _ hp hok ih
  | state args fs fs' cs ts hp hok _ ih => exact .state args _ _ _ _ hp hok ih
  | marked name tag props f fs fs' cs ts hname h1 h2 hd _ ih => exact .marked name tag props f _ _ _ _ hname h1 h2 hd ih
  | other name args fs fs' cs ts h1 h2 h3 hp _ ih => exact .other name args _ _ _ _ h1 h2 h3 hp ih

/-- The strings of a form are on its canvas. -/
theorem form_paints {h : Host} {x : Val} {f : Option Bytes} {ts : List Text} (hf : FormShows h x f ts) : ∃ r s f', h.formResources x = .ok r ∧ h.data x = .ok s ∧
    ∀ (res : Resources) (name : Bytes) (fs : List (Option Bytes)) (p : Paint), PaintInv res (f :: fs) p →
      ∃ p' c, renderForm h r s name p = (.ok (), p') ∧ PaintInv res (f' :: fs) p' ∧ p'.canvas = { p.canvas with forms := assocSet name c p.canvas.forms } ∧ c.strings = ts := by
  obtain ⟨r, s, cs, f', h1, hn, h2, h3, hs⟩ := hf
  refine ⟨r, s, f', h1, h2, fun res name fs p hp => ?_⟩
  have hs' : Shows (decoding h.decode r) (fun _ _ => True) (PlainGs h r) (f :: fs) cs (f' :: fs) ts := shows_frame hs fs
  have hp' : PaintInv r (f :: fs) { gss := p.gss } := ⟨hp.fonts, hp.copies, fun k d h => by cases h⟩
  obtain ⟨q, e, i, st, _⟩ := shows_puts (h := h) hn (onDo := fun _ => DM.pure (.ok ())) (onNav := DM.pure (.ok ())) (fun f fs args _ => leaves_of_goes (goes_pure ())) (goes_gs hn) hs' _ hp'
  have hr : renderStream h r (fun _ => DM.pure (.ok ())) (DM.pure (.ok ())) s { gss := p.gss } = (.ok (), q) := by
    unfold renderStream
    rw [h3]
    dsimp only
    rw [DM.bind_eq e]
    rfl
  refine ⟨{ p with gss := q.gss, canvas := { p.canvas with forms := assocSet name q.canvas p.canvas.forms } }, q.canvas, ?_, ⟨i.fonts, i.copies, hp.decoders⟩, rfl, ?_⟩
  · unfold renderForm
    rw [hr]
  · rw [st]
    rfl

theorem leaves_paint {h : Host} {res : Resources} (f : Option Bytes) (fs : List (Option Bytes)) (name : Bytes) (x : Val)
    (hv : ∀ es d, x = .stream b!"Form" es d → ∃ ts, FormShows h x f ts) : Leaves res (f :: fs) fs (paintXObject h name x) := by
  intro p hp
  have nop : ∃ f' p', ((.ok (), p) : Res Unit × Paint) = (.ok (), p') ∧ PaintInv res (f' :: fs) p' ∧ p'.canvas.strings = p.canvas.strings ∧ p'.canvas.inline = p.canvas.inline :=
    ⟨f, p, rfl, hp, rfl, rfl⟩
  unfold paintXObject
  split
  · split
    · exact nop
    · split
      · exact ⟨f, _, rfl, ⟨hp.fonts, hp.copies, hp.decoders⟩, rfl, rfl⟩
      · split
        · rename_i hform
          cases x with
          | stream cls es d =>
            have : cls = b!"Form" := by
              have : (cls == b!"Form") = true := hform
              exact eq_of_beq this
            subst this
            obtain ⟨ts, hf⟩ := hv es d rfl
            obtain ⟨r, s, f', h1, h2, h3⟩ := form_paints hf
            obtain ⟨p', c, e, i, hc, _⟩ := h3 res name fs p hp
            rw [h1]
            dsimp only
            rw [h2]
            dsimp only
            exact ⟨f', p', e, i, by rw [hc], by rw [hc]⟩
          | _ => cases hform
        · exact nop
  · exact nop

theorem leaves_do {h : Host} {res : Resources} (hn : Named res) (f : Option Bytes) (fs : List (Option Bytes)) (args : List Obj) (hd : PlainDo h res f args) :
    Leaves res (f :: fs) fs (onDoPage h res args) := by
  obtain ⟨n, rest, rfl, hv⟩ := hd
  have h1 : arg0 (.name n :: rest) = .ok (.name n) := rfl
  have h2 : strKey (.name n) = .ok (some n) := rfl
  have he : onDoPage h res (.name n :: rest) = match resource res b!"XObject" n with
      | some x => paintXObject h n x
      | none => DM.pure (.ok ()) := by
    unfold onDoPage
    rw [h1]
    funext p
    have hb : ∀ {α β : Type} (a : α) (f : α → DM Paint β), (DM.pure (.ok a)).bind f p = f a p := fun _ _ => rfl
    rw [hb, h2, hb, lookup_named hn (by simp), hb]
    cases resource res b!"XObject" n <;> rfl
  rw [he]
  cases hr : resource res b!"XObject" n with
  | none => exact leaves_of_goes (goes_pure ())
  | some x => exact leaves_paint f fs n x fun es d e => by subst e; exact hv es d hr

end PdfReader
