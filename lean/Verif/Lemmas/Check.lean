import Verif.Spec.Machine
import Verif.Lemmas.Walk

/-!
# Deciding whether an account stores an asset

Used in the concrete cases.
-/

namespace Verif

open Verif.Spec

/-- Where the given packed extensions end, if they are stored from `off` on. -/
def checkPacked (d : Bytes) : Nat → List Extn → Option Nat
  | off, [] => if off ≤ d.length then some off else none
  | off, (t, p) :: rest =>
    if t ≠ .none ∧ leNat (slice d off 4) = t.toU32 ∧ leNat (slice d (off + 4) 4) = p.length ∧
        leNat (slice d (off + 8) 4) = roundUp8 (off + 16 + p.length) ∧
        slice d (off + 16) p.length = p then
      checkPacked d (roundUp8 (off + 16 + p.length)) rest
    else none

theorem checkPacked_sound {d : Bytes} {off e : Nat} {es : List Extn}
    (h : checkPacked d off es = some e) : Packed d off es e := by
  induction es generalizing off with
  | nil =>
    rw [checkPacked] at h
    split at h
    · cases h; exact .nil (by assumption)
    · cases h
  | cons x xs ih =>
    obtain ⟨t, p⟩ := x
    rw [checkPacked] at h
    split at h
    · rename_i hc
      exact .cons hc.1 hc.2.1 hc.2.2.1 hc.2.2.2.1 hc.2.2.2.2 (ih h)
    · cases h

/-- Does the account store the asset? -/
def checkStores (program : Key) (L : Ledger) (k : Key) (A : Asset) : Bool :=
  decide ((L k).owner = program ∧ 168 ≤ (L k).data.length ∧ (assetAt L k).disc = 1 ∧
    (L k).data.length ≤ 10485760 ∧ A = Asset.of (assetAt L k) A.exts) &&
  match checkPacked (L k).data 168 A.exts with
  | some e => decide (leNat (slice (L k).data e 4) = 0)
  | none => false

theorem checkStores_sound {program : Key} {L : Ledger} {k : Key} {A : Asset}
    (h : checkStores program L k A = true) : Stores program L k A := by
  unfold checkStores at h
  rw [Bool.and_eq_true, decide_eq_true_iff] at h
  obtain ⟨⟨h1, h2, h3, h4, h5⟩, h6⟩ := h
  refine ⟨⟨h1, h2, h3⟩, h4, h5, ?_⟩
  split at h6
  · rename_i e he
    exact ⟨e, checkPacked_sound he, of_decide_eq_true h6⟩
  · cases h6

end Verif
