import Verif.Lemmas.Inv
import Verif.Examples

/-!
# C02 — transfer has exactly its documented effect
-/

namespace Verif.Props

open Verif Verif.Spec

/-- Effect and frame of a successful Transfer. -/
theorem C02_transfer_effect {E : Env} {L L' : Ledger} {accts : List Key}
    (h : execute E L accts .transfer = .ok L') :
    ∃ asset signer recipient group rest,
      accts = asset :: signer :: recipient :: group :: rest ∧
      ((assetAt L asset).owner = recipient → L' = L) ∧
      ((assetAt L asset).owner ≠ recipient →
        OnlyData L L' asset ∧
        assetAt L' asset =
          { assetAt L asset with owner := recipient, delegate := Key.default, roles := 0 }) := by
  obtain ⟨a, s, r, g, rest, rfl, hp⟩ := exec_transfer h
  refine ⟨a, s, r, g, rest, rfl, ?_⟩
  clear h; rename' hp => h; unfold processTransfer at h
  inv at h
  obtain ⟨ho, hs, hi, _, _, _, allowed, hal, rfl, h⟩ := h
  have hi1 : 168 ≤ (L a).data.length := hi.1
  by_cases hr : hOwner (L a).data = r
  · rw [if_pos hr] at h
    exact ⟨fun _ => (pure_ok.mp h).symm, fun hn => absurd hr hn⟩
  · rw [if_neg hr] at h
    refine ⟨fun hn => absurd hn hr, fun _ => ?_⟩
    inv at h
    obtain ⟨_, rfl⟩ := h
    have hl := length_setOwner hi1 r
    have hl' : (setDelegate (setOwner (L a).data r) Key.default 0).length = (L a).data.length := by
      rw [length_setDelegate (by omega), hl]
    refine ⟨onlyData_setData _ _ _ hl', ?_⟩
    unfold assetAt
    rw [Ledger.setData_same]
    simp only
    rw [view_setDelegate (by omega), view_setOwner hi1]

/-! ## Concrete cases -/

example : Ex.after (Ex.run Ex.simple [Ex.k 2] [Ex.k 1, Ex.k 2, Ex.k 5, Ex.prog] .transfer) (Ex.k 1) =
    .ok (Ex.owned (Ex.header 0 0 1 (Ex.k 5) Key.default (Ex.k 3) Key.default 0 [65, 66])) := by
  decide +kernel

/-- A self-transfer keeps the delegate. -/
example : Ex.after (Ex.run Ex.simple [Ex.k 4] [Ex.k 1, Ex.k 4, Ex.k 2, Ex.prog] .transfer) (Ex.k 1) =
    .ok (Ex.simple (Ex.k 1)) := by
  decide +kernel

end Verif.Props
