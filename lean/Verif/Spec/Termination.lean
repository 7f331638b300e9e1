/-
  When resolving references must terminate: vocabulary for C100.
-/
import Verif.Model.Locate

namespace PdfReader.Spec
open PdfReader

/-- The computation ends: some fuel is enough, and more fuel changes nothing. -/
def Ends {α : Type} (f : Nat → Res α × St) : Prop :=
  ∃ (bound : Nat) (p : Res α × St), p.1 ≠ .error .diverges ∧ ∀ fuel, bound ≤ fuel → f fuel = p

/-- Reading an indirect object somewhere in the file meets a stream whose Length is the reference `n g R`: at some offset, and
whatever the Lengths met before in that object are. -/
def UsedAsLength (file : Bytes) (n g : Nat) : Prop :=
  ∃ off known, indirectObject (askCfg known) (file.drop off) = .error (.need n g)

/-- At this offset stands the object `n g`, no stream with an indirect Length, and its decryption succeeds. -/
def StandsAt (env : Env) (n g off : Nat) : Prop :=
  ∃ v w r, indirectObject (askCfg []) (env.file.drop off) = .ok ((n, g, v), r) ∧ env.dec n g v = .ok w

/-- The newest section which lists `n g` in use gives the offset where it stands. -/
def WellListed (env : Env) (n g : Nat) : Prop :=
  ∃ pre x post e, env.xrefs = pre ++ x :: post ∧ (∀ y ∈ pre, ∀ e', natGet y.inUse n = some e' → e'.gen ≠ g) ∧
    natGet x.inUse n = some e ∧ e.gen = g ∧ StandsAt env n g e.offset

/-- No object stream of the file has an object stream among its members (ISO 32000-1 7.5.7 forbids streams there). -/
def NoNestedPacks (env : Env) : Prop :=
  ∀ off known n g v w r d raw data first ms num o m, indirectObject (askCfg known) (env.file.drop off) = .ok ((n, g, v), r) →
    env.dec n g v = .ok w → w = .stream d raw → objStmDir env.filtered d raw = .ok (data, first, ms) → (num, o) ∈ ms →
    member data first o = .ok m → isObjStm m = false

/-- Exceptions a filter or a decryption can raise. -/
def Ordinary {α : Type} (r : Res α) : Prop := r ≠ .error .diverges ∧ r ≠ .error .recursion

end PdfReader.Spec
