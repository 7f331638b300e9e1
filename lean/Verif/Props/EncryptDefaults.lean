/-
  C152: optional entries of encryption dictionaries.
-/
import Verif.Spec.EncryptDefaults
import Verif.Props.Lazy
import Verif.Props.SecretFile

namespace PdfReader

open Spec

/-- All that is read of an encryption dictionary. -/
theorem params_congr (id : Option Obj) {d d' : List (Bytes × Obj)}
    (h : ∀ k ∈ [b!"R", b!"P", b!"O", b!"U", b!"OE", b!"UE", b!"CF", b!"StmF", b!"StrF"], dictGet d k = dictGet d' k)
    (hv : (dictGet d b!"V").getD (.int 0) = (dictGet d' b!"V").getD (.int 0))
    (hl : (dictGet d b!"Length").getD (.int 40) = (dictGet d' b!"Length").getD (.int 40))
    (hm : encryptsMetadata (dictGet d b!"EncryptMetadata") = encryptsMetadata (dictGet d' b!"EncryptMetadata")) : paramsOf id d = paramsOf id d' := by
  have hb : ∀ kind, baseParams kind id d = baseParams kind id d' := by
    intro kind
    unfold baseParams entryBytes
    rw [h b!"R" (by decide), h b!"P" (by decide), h b!"O" (by decide), h b!"U" (by decide), hl]
  have h4 : ∀ kind, v4Params kind id d = v4Params kind id d' := by
    intro kind
    unfold v4Params
    rw [hb, h b!"StmF" (by decide), h b!"StrF" (by decide), h b!"CF" (by decide), hm]
  unfold paramsOf v5Params
  rw [hv, hb, h4, h4, h b!"OE" (by decide), h b!"UE" (by decide)]

theorem handler_congr (C : Crypto) (id : Option Obj) {d d' : List (Bytes × Obj)} (h : paramsOf id d = paramsOf id d') (password : Text) :
    mkHandler C id d password = mkHandler C id d' password := by
  unfold mkHandler
  rw [h]

theorem dictGet_set_same {k : Bytes} (o : Obj) : ∀ raw : List (Bytes × Obj), dictGet (dictSet raw k o) k = some o
  | [] => by unfold dictSet dictGet; rw [if_pos rfl]
  | (a, b) :: raw => by
    unfold dictSet
    by_cases e : a = k
    · rw [if_pos e]
      unfold dictGet
      rw [if_pos rfl]
    · rw [if_neg e]
      unfold dictGet
      rw [if_neg e]
      exact dictGet_set_same o raw

/-- C152, what holds: version, length of the key, and whether metadata are encrypted. For every dictionary without such an entry it is the same to
write its default, whatever the document, the password and the ciphers. -/
theorem C152_defaults_partial (C : Crypto) (id : Option Obj) (d : List (Bytes × Obj)) (password : Text) (k : Bytes) (v : Obj) (hk : (k, v) ∈ encryptDefaults)
    (hn : k ∉ [b!"CF", b!"StmF", b!"StrF"]) (hd : dictGet d k = none) : mkHandler C id (dictSet d k v) password = mkHandler C id d password := by
  apply handler_congr
  have hall : ∀ j, k ≠ j → dictGet (dictSet d k v) j = dictGet d j := fun j hj => dictGet_set_ne v hj d
  simp only [encryptDefaults, List.mem_cons, Prod.mk.injEq, List.not_mem_nil, or_false] at hk
  rcases hk with ⟨rfl, rfl⟩ | ⟨rfl, rfl⟩ | ⟨rfl, rfl⟩ | ⟨rfl, rfl⟩ | ⟨rfl, rfl⟩ | ⟨rfl, rfl⟩
  · refine params_congr id (fun j hj => hall j ?_) ?_ ?_ ?_
    · rintro rfl; revert hj; decide
    · rw [dictGet_set_same, hd]; rfl
    · rw [hall _ (by decide)]
    · rw [hall _ (by decide)]
  · refine params_congr id (fun j hj => hall j ?_) ?_ ?_ ?_
    · rintro rfl; revert hj; decide
    · rw [hall _ (by decide)]
    · rw [dictGet_set_same, hd]; rfl
    · rw [hall _ (by decide)]
  · refine params_congr id (fun j hj => hall j ?_) ?_ ?_ ?_
    · rintro rfl; revert hj; decide
    · rw [hall _ (by decide)]
    · rw [hall _ (by decide)]
    · rw [dictGet_set_same, hd]; rfl
  all_goals exact absurd (by decide) hn

/-- C152: other entries, and the order of the entries, do not matter. -/
theorem C152_others (C : Crypto) (id : Option Obj) (d d' : List (Bytes × Obj)) (password : Text) (h : ∀ k ∈ encryptEntries, dictGet d k = dictGet d' k) :
    mkHandler C id d password = mkHandler C id d' password := by
  apply handler_congr
  refine params_congr id (fun k hk => h k ?_) ?_ ?_ ?_
  · have : ∀ k ∈ [b!"R", b!"P", b!"O", b!"U", b!"OE", b!"UE", b!"CF", b!"StmF", b!"StrF"], k ∈ encryptEntries := by decide
    exact this k hk
  · rw [h _ (by decide)]
  · rw [h _ (by decide)]
  · rw [h _ (by decide)]

/-- C152 is false for the crypt filters of versions 4 and 5: without CF, StmF or StrF no document opens, with any password. -/
theorem C152_filters_counterexample (C : Crypto) (id : Option Obj) (d : List (Bytes × Obj)) (password : Text) (v : Int) (hv : dictGet d b!"V" = some (.int v))
    (h45 : v = 4 ∨ v = 5) (hn : dictGet d b!"CF" = none ∨ dictGet d b!"StmF" = none ∨ dictGet d b!"StrF" = none) :
    ∀ hd, mkHandler C id d password ≠ .ok hd := by
  have h4 : ∀ kind q, v4Params kind id d ≠ .ok q := by
    intro kind q e
    unfold v4Params at e
    cases hb : baseParams kind id d with
    | error x => rw [hb] at e; cases e
    | ok q0 =>
      rw [hb] at e
      dsimp only at e
      split at e
      · rename_i h1 h2
        rcases hn with hn | hn | hn
        · rw [hn] at e; cases e
        · rw [hn] at h1; cases h1
        · rw [hn] at h2; cases h2
      all_goals cases e
  have hp : ∀ q, paramsOf id d ≠ .ok q := by
    intro q e
    unfold paramsOf at e
    rw [hv] at e
    dsimp only [Option.getD] at e
    rcases h45 with rfl | rfl
    · rw [if_neg (by decide), if_pos rfl] at e
      exact h4 _ _ e
    · rw [if_neg (by decide), if_neg (by decide), if_pos rfl] at e
      unfold v5Params at e
      cases hq : v4Params .v5 id d with
      | error x => rw [hq] at e; cases e
      | ok q0 => exact h4 _ _ hq
  intro hd e
  unfold mkHandler at e
  cases hu : utf8 password with
  | error x => rw [hu] at e; cases e
  | ok pw =>
    rw [hu] at e
    dsimp only at e
    cases hq : paramsOf id d with
    | error x => rw [hq] at e; cases e
    | ok q => exact hp q hq

/-- Without entries for the method of encryption of strings. -/
def noStrings5 : List (Bytes × Obj) := dictDel secretDict5 b!"StrF"

/-- Does it open, and with which key? -/
def openedKey (r : Res Handler) : Option Bytes := match r with | .ok h => some h.key | .error _ => none

/-- The document opens if the default of the missing StrF is written, and does not if it is left out. -/
theorem C152_strings_counterexample : (b!"StrF", .name b!"Identity") ∈ encryptDefaults ∧
    openedKey (mkHandler toyCrypto (some toyIdent) noStrings5 [111, 119, 110, 101, 114]) = none ∧
    openedKey (mkHandler toyCrypto (some toyIdent) (dictSet noStrings5 b!"StrF" (.name b!"Identity")) [111, 119, 110, 101, 114]) =
      some (List.replicate 16 5 ++ List.replicate 16 6) := by
  refine ⟨by simp [encryptDefaults], by decide +kernel, by decide +kernel⟩

/-- The hypotheses are met by a dictionary which opens. -/
example : dictGet secretDict5 b!"Length" = none ∧ dictGet secretDict5 b!"EncryptMetadata" = none ∧
    openedKey (mkHandler toyCrypto (some toyIdent) (dictSet secretDict5 b!"EncryptMetadata" (.bool true)) [111, 119, 110, 101, 114]) =
      some (List.replicate 16 5 ++ List.replicate 16 6) := ⟨rfl, rfl, by decide +kernel⟩

end PdfReader
