import Verif.Lemmas.Inv
import Verif.Examples

/-!
# C05 — lock and unlock are authorised and touch only the lock state
-/

namespace Verif.Props

open Verif Verif.Spec

/-- Who may lock or unlock: the governing delegate with the Lock role, or the owner while
no delegate is approved. -/
def MayLock (d : Bytes) (signer : Key) : Prop :=
  IsDelegate d signer .lock ∨ ((view d).owner = signer ∧ holderDelegate (view d) = none)

theorem lockAuthority_ok {d : Bytes} {signer : Key} (h : lockAuthority d signer = .ok ()) :
    MayLock d signer := by
  unfold lockAuthority at h
  simp only [bind_ok] at h
  obtain ⟨m, hm, h⟩ := h
  rw [hDelegateValue_eq] at h
  cases hx : holderDelegate (view d) with
  | some x =>
    rw [hx] at h
    simp only [assertDelegate_two] at h
    obtain ⟨y, h1, h2, h3⟩ := h
    exact Or.inl ⟨m, y, managerOf_has hm, by rw [hx]; exact h1, h2, h3⟩
  | none =>
    rw [hx] at h
    simp only at h
    by_cases ho : hOwner d = signer
    · exact Or.inr ⟨ho, hx⟩
    · rw [if_pos ho] at h
      rw [assertDelegate_one] at h
      obtain ⟨y, h1, h2, h3⟩ := h
      subst h1
      exact Or.inl ⟨some y, y, managerOf_has hm, rfl, h2, h3⟩

/-- Effect and authorisation of a successful Lock. -/
theorem C05_lock {E : Env} {L L' : Ledger} {accts : List Key}
    (h : execute E L accts .lock = .ok L') :
    ∃ asset signer rest, accts = asset :: signer :: rest ∧
      IsAsset E.program L asset ∧ E.signer signer = true ∧ MayLock (L asset).data signer ∧
      OnlyData L L' asset ∧ assetAt L' asset = { assetAt L asset with state := 1 } := by
  obtain ⟨a, s, rest, rfl, hp⟩ := exec_lock h
  clear h; rename' hp => h; unfold processLock at h
  inv at h
  obtain ⟨hs, ho, hi, hauth, rfl⟩ := h
  have hi1 : 168 ≤ (L a).data.length := hi.1
  refine ⟨a, s, rest, rfl, ⟨ho, hi.1, hi.2⟩, hs, lockAuthority_ok hauth,
    onlyData_setData _ _ _ (length_setState hi1 _), ?_⟩
  unfold assetAt
  rw [Ledger.setData_same]
  exact view_setState hi1 _

/-- Effect and authorisation of a successful Unlock. -/
theorem C05_unlock {E : Env} {L L' : Ledger} {accts : List Key}
    (h : execute E L accts .unlock = .ok L') :
    ∃ asset signer rest, accts = asset :: signer :: rest ∧
      IsAsset E.program L asset ∧ E.signer signer = true ∧ MayLock (L asset).data signer ∧
      OnlyData L L' asset ∧ assetAt L' asset = { assetAt L asset with state := 0 } := by
  obtain ⟨a, s, rest, rfl, hp⟩ := exec_unlock h
  clear h; rename' hp => h; unfold processUnlock at h
  inv at h
  obtain ⟨hs, ho, hi, hauth, rfl⟩ := h
  have hi1 : 168 ≤ (L a).data.length := hi.1
  refine ⟨a, s, rest, rfl, ⟨ho, hi.1, hi.2⟩, hs, lockAuthority_ok hauth,
    onlyData_setData _ _ _ (length_setState hi1 _), ?_⟩
  unfold assetAt
  rw [Ledger.setData_same]
  exact view_setState hi1 _

/-! ## Concrete cases -/

example : Ex.after (Ex.run Ex.simple [Ex.k 4] [Ex.k 1, Ex.k 4] .lock) (Ex.k 1) =
    .ok (Ex.owned (Ex.header 1 0 1 (Ex.k 2) Key.default (Ex.k 3) (Ex.k 4) 7 [65, 66])) := by
  decide +kernel

/-- The owner cannot lock while a delegate is approved. -/
example : Ex.after (Ex.run Ex.simple [Ex.k 2] [Ex.k 1, Ex.k 2] .lock) (Ex.k 1) =
    .error (.asset .invalidDelegate) := by
  decide +kernel

/-- The manager locks and unlocks. -/
example : (Ex.run Ex.managed [Ex.k 6] [Ex.k 1, Ex.k 6] .lock).toBool = true ∧
    (Ex.run Ex.managed [Ex.k 6] [Ex.k 1, Ex.k 6] .unlock).toBool = true := by
  decide +kernel

end Verif.Props
