import Verif.Lemmas.Life
import Verif.Lemmas.Check
import Verif.Examples

/-!
# C09 — authority changes only by a doubly signed handover
-/

namespace Verif.Props

open Verif Verif.Spec

section
variable {E : Env} {L L' : Ledger} {accts : List Key} {program k : Key} {A A' : Asset} {i : Instr}

/-- A successful Handover: who signed, and what changed. No assumption on the extensions. -/
theorem C09_handover (h : execute E L accts .handover = .ok L') :
    ∃ asset old new rest, accts = asset :: old :: new :: rest ∧ IsAsset E.program L asset ∧
      E.signer old = true ∧ E.signer new = true ∧ (assetAt L asset).authority = old ∧
      (assetAt L asset).mutableByte ≠ 0 ∧ OnlyData L L' asset ∧
      assetAt L' asset = { assetAt L asset with authority := new } := by
  obtain ⟨a, o, n, rest, rfl, hp⟩ := exec_handover h
  unfold processHandover at hp
  inv at hp
  obtain ⟨h1, h2, h3, h4, h5, h6, rfl⟩ := hp
  refine ⟨a, o, n, rest, rfl, ⟨h3, h4.1, h4.2⟩, h1, h2, h5, ?_,
    onlyData_setData _ _ _ (length_setAuthority h4.1 _), ?_⟩
  · unfold hMutable at h6
    have : byteAt (L a).data 3 ≠ 0 := by simpa using h6
    exact this
  · unfold assetAt
    rw [Ledger.setData_same]
    exact view_setAuthority h4.1 _

/-- Whichever instruction changes the authority of an asset is a Handover on it, signed by the
old and the new authority, and the asset was mutable. -/
theorem C09_only_handover_partial {A' : Asset} (hs : Stores E.program L k A)
    (h : execute E L accts i = .ok L') (hsound : Sound k A accts i)
    (hs' : Stores E.program L' k A') (hne : A'.authority ≠ A.authority) :
    i = .handover ∧ (∃ rest, accts = k :: A.authority :: A'.authority :: rest) ∧
      E.signer A.authority = true ∧ E.signer A'.authority = true ∧ A.mutableByte ≠ 0 := by
  rcases refine hs h hsound with ⟨_, _, hg⟩ | ⟨B, h1, h2⟩
  · have := hs'.1.2.1
    rw [hg] at this
    simp at this
  · obtain rfl := hs'.unique h1
    cases h2 with
    | handover _ s n rest ha h1 h2 h3 h4 =>
      subst h3
      exact ⟨rfl, ⟨rest, ha⟩, h1, h2, h4⟩
    | _ => exact absurd rfl hne

/-- Histories without a Handover on the asset keep its authority. -/
theorem C09_history_partial {P : List Key → Instr → Prop}
    (hP : ∀ accts i, P accts i → ¬ (i = .handover ∧ accts.head? = some k))
    (hs : Stores program L k A) (hl : SoundLife program k P L L') :
    ∃ A', Stores program L' k A' ∧ A'.authority = A.authority := by
  refine SoundLife.invariant (I := fun B => B.authority = A.authority) ?_ hs rfl hl
  intro E accts i B B' _ hp hB hm
  cases hm with
  | handover _ s n rest ha h1 h2 h3 h4 => exact absurd ⟨rfl, by rw [ha]; rfl⟩ (hP _ _ hp)
  | _ => exact hB

end

section Examples
open Verif.Ex

example :
    (run simple [k 3, k 5] [k 1, k 3, k 5] .handover).map
      (fun L' => (assetAt L' (k 1)).authority) = .ok (k 5) ∧
    -- one signature is not enough
    (run simple [k 3] [k 1, k 3, k 5] .handover).isOk = false ∧
    (run simple [k 5] [k 1, k 3, k 5] .handover).isOk = false ∧
    (run simple [k 2, k 5] [k 1, k 2, k 5] .handover).isOk = false := by decide +kernel

example : Stores prog simple (k 1)
    ⟨0, 0, 1, k 2, Key.default, k 3, k 4, 7, podStr35 [65, 66], []⟩ :=
  checkStores_sound (by decide +kernel)

end Examples

end Verif.Props
