/-
  Pages whose content is in several streams (C104).
-/
import Verif.Spec.Parts
import Verif.Lemmas.TextFile
import Verif.Props.Navigate
import Verif.Props.Content

namespace PdfReader

open Spec

theorem ended_stop {s x : Bytes} (h : Ended s) : Stop (s ++ x) := by
  obtain ⟨c, t, rfl, hc⟩ := h
  exact notStart_mk hc

/-- The separators in front of a text. -/
theorem content_front {ops : List Obj} {cs : List Content} {t : Bytes} (h : ContentText ops cs t) :
    ∃ s r, t = s ++ r ∧ Spec.Sep s ∧ NotStart SepChar r := by
  cases h with
  | done _ _ hs => exact ⟨_, [], (List.append_nil _).symm, hs, notStart_nil⟩
  | operand _ _ s o t s' r hs hd _ _ _ _ _ =>
    obtain ⟨c, t', rfl, hc⟩ := den_head hd
    refine ⟨s, _, rfl, hs, notStart_mk ?_⟩
    have key : ∀ c : Byte, objStart c = true → isWs c = false ∧ c ≠ 37 := forall_u8 _ (by decide +kernel)
    obtain ⟨h1, h2⟩ := key c hc
    rintro (h | h)
    · rw [ws_iff, h1] at h; cases h
    · exact h2 h
  | op _ _ s t u hs ht _ _ =>
    refine ⟨s, _, rfl, hs, ?_⟩
    obtain ⟨h1, h2, _⟩ := ht
    cases t with
    | nil => exact absurd rfl h1
    | cons c n =>
      refine notStart_mk ?_
      have := h2 c (by simp)
      rintro (h | rfl)
      · exact this.1 h
      · exact this.2 (by simp [Delim])
  | image _ _ s d data t u hs _ _ =>
    refine ⟨s, _, rfl, hs, notStart_mk ?_⟩
    rintro (h | h)
    · revert h; unfold WS; decide
    · revert h; decide

theorem content_sep {ops : List Obj} {cs : List Content} {s t : Bytes} (hs : Spec.Sep s) (h : ContentText ops cs t) : ContentText ops cs (s ++ t) := by
  cases h with
  | done _ s' h => exact .done _ _ (sep_append hs h)
  | operand _ _ s' o t s'' r h1 h2 h3 h4 h5 h6 h7 =>
    rw [← List.append_assoc]
    exact .operand _ _ _ o t s'' r (sep_append hs h1) h2 h3 h4 h5 h6 h7
  | op _ _ s' t u h1 h2 h3 h4 =>
    rw [← List.append_assoc]
    exact .op _ _ _ t u (sep_append hs h1) h2 h3 h4
  | image _ _ s' d data t u h1 h2 h3 =>
    rw [← List.append_assoc]
    exact .image _ _ _ d data t u (sep_append hs h1) h2 h3

theorem part_join {ops ops' : List Obj} {cs ds : List Content} {a b : Bytes} (ha : PartText ops cs ops' a) (hb : ContentText ops' ds b) :
    ContentText ops (cs ++ ds) (a ++ b) := by
  induction ha with
  | done ops s hs => exact content_sep hs hb
  | last ops s o t s' hs hd hs' hst hno =>
    obtain ⟨s2, r2, rfl, h1, h2⟩ := content_front hb
    have := ContentText.operand ops ds s o t (s' ++ s2) r2 hs hd (sep_append hs' h1) h2 (fun h => by rw [List.append_assoc]; exact ended_stop (hst h))
      (by rintro ⟨d, e⟩; exact absurd e (hno d)) (by rw [List.append_assoc]; exact content_sep hs' hb)
    simpa [List.append_assoc] using this
  | operand ops cs ops' s o t s' c r hs hd hs' hc hst hdict _ ih =>
    have i := ih hb
    rw [List.append_assoc, List.cons_append] at i
    have := ContentText.operand ops _ s o t s' (c :: (r ++ b)) hs hd hs' (notStart_mk hc)
      (fun h => by have := ended_stop (x := b) (hst h); rwa [List.append_assoc, List.cons_append] at this) (fun h => notStart_mk (hdict h)) i
    simpa [List.append_assoc] using this
  | op ops cs ops' s t u hs ht hu _ ih =>
    have := ContentText.op ops _ s t _ hs ht (ended_stop hu) (ih hb)
    simpa [List.append_assoc] using this
  | image ops cs ops' s d data t u hs ht _ ih =>
    have := ContentText.image ops _ s d data t _ hs ht (ih hb)
    rw [List.append_assoc, List.append_assoc, List.append_assoc]
    exact this

theorem parts_text {ops : List Obj} {cs : List Content} {ts : List Bytes} (h : PartsText ops cs ts) : ContentText ops cs ts.flatten := by
  induction h with
  | nil ops => exact .done _ _ .nil
  | last ops cs t h => simpa using h
  | cons ops ops' cs ds t ts h _ ih => exact part_join h ih

/-- The streams of a page, each of which ends its tokens, are read as the commands of all of them: operands in one stream belong to the operator in the next. -/
theorem C104_commands_partial (cs : List Content) (ts : List Bytes) (h : PartsText [] cs ts) : contentObjects ts.flatten = (cs, none) := C23_commands cs _ (parts_text h)

theorem data_contents {h : Host} {vs : List Val} {ss : List Bytes} (hd : DataAre h vs ss) : ContentsAre h (.arr vs) ss.flatten := by
  induction hd with
  | nil => exact .none
  | cons cls es d s vs ss h1 _ ih => exact .more _ _ _ _ _ _ h1 ih

/-- After any calls which returned, moving to a page whose Contents are such streams and rendering it shows the strings of their commands. -/
theorem C104_shows_partial (doc : DocPages) (v : Viewer) (hv : Clean doc v) (n : Int) (pg : PageInfo) (hp : PageIs doc n pg) (r : Resources) (hr : pg.resources = .ok r) (hn : Named r)
    (vs : List Val) (hc : pg.contents = .ok (.arr vs)) (ss : List Bytes) (hd : DataAre pg.host vs ss) (cs : List Content) (ht : PartsText [] cs ss) (ts : List Text)
    (fs' : List (Option Bytes)) (hs : Shows (decoding pg.host.decode r) (PlainDo pg.host r) (PlainGs pg.host r) [none] cs fs' ts) :
    ∃ w u, Viewer.navigate doc n v = (.ok (), w) ∧ w.render = (.ok (), u) ∧ u.current.strings = ts ∧ u.current.inline = imagesOf cs := by
  have hreads : PageReads pg r ss.flatten := ⟨hr, _, hc, data_contents hd⟩
  obtain ⟨w, e, hnum, _⟩ := C49_reaches doc v (clean_reached hv) n pg hp r _ hreads
  obtain ⟨p, e1, e2, e3⟩ := C53_strings_partial pg.host r hn _ cs (C104_commands_partial cs ss ht) ts fs' hs
  have hw : Clean doc w := .called (.navigate n) v w hv e
  obtain ⟨u, e4, e5⟩ := C52_succeeds_partial doc w hw pg (by rw [hnum]; exact hp) p.canvas ⟨r, _, p, hreads, e1, rfl⟩
  exact ⟨w, u, e, e4, by rw [e5]; exact e2, by rw [e5]; exact e3⟩

/-- A page with three streams: `q 1` `0 0 rg (a)` `Tj Q`. -/
def threeParts : DocPages :=
  { pages := [{ host := plainHost, resources := .ok [], contents := .ok (.arr [.stream b!"Stream" [] b!"q 1 ", .stream b!"Stream" [] b!"0 0 rg (a)", .stream b!"Stream" [] b!"Tj Q"]) }] }

theorem ended_blank (x : Bytes) : Ended (32 :: x) := ⟨32, x, rfl, fun h => h.1 (by simp [WS])⟩

theorem op_text {t : Bytes} (h : t ≠ [] ∧ (∀ c ∈ t, isRegular c = true) ∧ (t.head?.all (fun c => !(isDigit c) && c != 43 && c != 45 && c != 46)) = true ∧
    t ∉ ([b!"null", b!"true", b!"false", b!"BI"] : List Bytes)) : OpText t := by
  obtain ⟨h1, h2, h3, h4⟩ := h
  refine ⟨h1, fun c hc => (regular_iff c).mpr (h2 c hc), ?_, h4⟩
  rintro c t' rfl
  simp only [List.head?_cons, Option.all_some, Bool.and_eq_true, bne_iff_ne, Bool.not_eq_true'] at h3
  obtain ⟨⟨⟨a1, a2⟩, a3⟩, a4⟩ := h3
  rintro (hd | hd | hd | hd)
  · rw [digit_iff, a1] at hd; cases hd
  · exact a2 hd
  · exact a3 hd
  · exact a4 hd

/-- Its streams are such streams: the operands of `rg` and `Tj` are in other streams than the operators. -/
theorem threeParts_text : PartsText [] [.op b!"q" [], .op b!"rg" [.int 1, .int 0, .int 0], .op b!"Tj" [.str b!"a"], .op b!"Q" []] [b!"q 1 ", b!"0 0 rg (a)", b!"Tj Q"] := by
  have i : ∀ d : Byte, isDigit d = true → Den false (.obj (.int (Spec.decVal [d]))) [d] := fun d hd =>
    .int _ _ (IntText.mk false [] [d] (.inl ⟨rfl, .inl rfl⟩) ⟨by simp, fun c hc => by rw [List.mem_singleton] at hc; rw [hc, digit_iff]; exact hd⟩)
  have i0 : Den false (.obj (.int 0)) [48] := i 48 rfl
  have i1 : Den false (.obj (.int 1)) [49] := i 49 rfl
  have sa : Den false (.obj (.str b!"a")) b!"(a)" := .str b!"a" b!"a" (.plain 97 [] [] (by decide) (by decide) (by decide) (by decide) .nil)
  have ns : ∀ c : Byte, isRegular c = true → ¬ SepChar c := by
    intro c hc
    rw [← regular_iff] at hc
    rintro (h | rfl)
    · exact hc.1 h
    · exact hc.2 (by simp [Delim])
  refine .cons [] [.int 1] [.op b!"q" []] _ b!"q 1 " _ ?_ ?_
  · exact .op [] [] _ [] b!"q" b!" 1 " .nil (op_text (by decide)) (ended_blank _) (.last [] [32] (.int 1) [49] [32] sep_blank i1 sep_blank (fun _ => ended_blank _) (fun d h => by cases h))
  · refine .cons [.int 1] [.str b!"a"] [.op b!"rg" [.int 1, .int 0, .int 0]] _ b!"0 0 rg (a)" _ ?_ ?_
    · refine .operand [.int 1] _ _ [] (.int 0) [48] [32] 48 b!" rg (a)" .nil i0 sep_blank (ns _ rfl) (fun _ => ended_blank _) (by rintro ⟨d, h⟩; cases h) ?_
      refine .operand [.int 1, .int 0] _ _ [32] (.int 0) [48] [32] 114 b!"g (a)" sep_blank i0 sep_blank (ns _ rfl) (fun _ => ended_blank _) (by rintro ⟨d, h⟩; cases h) ?_
      refine .op _ [] _ [32] b!"rg" b!" (a)" sep_blank (op_text (by decide)) (ended_blank _) ?_
      exact .last [] [32] (.str b!"a") b!"(a)" [] sep_blank sa .nil (fun h => by cases h) (fun d h => by cases h)
    · exact .last _ _ _ (.op _ _ [] b!"Tj" b!" Q" .nil (op_text (by decide)) stop_space (.op [] [] [32] b!"Q" [] sep_blank (op_text (by decide)) notStart_nil (.done _ _ .nil)))

example : runOn threeParts [.render] = some (none, 1, [asc b!"a"]) := by decide +kernel

/-- The streams are joined without white space between them: operators at the end of one and the start of the next become another operator, and the strings which
they show are lost. -/
theorem C104_joined_counterexample :
    contentObjects b!"(a) Tj" = ([.op b!"Tj" [.str b!"a"]], none) ∧ contentObjects b!"BT ET" = ([.op b!"BT" [], .op b!"ET" []], none) ∧
    runOn { pages := [{ host := plainHost, resources := .ok [], contents := .ok (.arr [.stream b!"Stream" [] b!"(a) Tj", .stream b!"Stream" [] b!"BT ET"]) }] } [.render] =
      some (none, 1, []) ∧
    contentObjects b!"(a) TjBT ET" = ([.op b!"TjBT" [.str b!"a"], .op b!"ET" []], none) := by decide +kernel

/-- Numbers too: `1 0` and `0 1 k` become three operands. -/
theorem C104_numbers_counterexample : contentsData plainHost (.arr [.stream b!"Stream" [] b!"1 0", .stream b!"Stream" [] b!"0 1 k"]) = .ok b!"1 00 1 k" ∧
    contentObjects b!"1 00 1 k" = ([.op b!"k" [.int 1, .int 0, .int 1]], none) := by decide +kernel

end PdfReader
