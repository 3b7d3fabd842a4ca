import Verif.Lemmas.Inv
import Verif.Examples

/-!
# C01 — only the owner or the effective transfer delegate can transfer
-/

namespace Verif.Props

open Verif Verif.Spec

/-- A successful Transfer was signed by its signer account, which is the owner of the asset
or its governing delegate with the Transfer role. -/
theorem C01_transfer_authorised {E : Env} {L L' : Ledger} {accts : List Key}
    (h : execute E L accts .transfer = .ok L') :
    ∃ asset signer recipient group rest,
      accts = asset :: signer :: recipient :: group :: rest ∧
      IsAsset E.program L asset ∧ E.signer signer = true ∧
      ((assetAt L asset).owner = signer ∨ IsDelegate (L asset).data signer .transfer) := by
  obtain ⟨a, s, r, g, rest, rfl, hp⟩ := exec_transfer h
  refine ⟨a, s, r, g, rest, rfl, ?_⟩
  clear h; rename' hp => h; unfold processTransfer at h
  inv at h
  obtain ⟨ho, hs, hi, _, _, _, allowed, hal, rfl, _⟩ := h
  exact ⟨⟨ho, hi.1, hi.2⟩, hs, ownerOrDelegate_true hal⟩

/-- On an asset with a manager, only the manager's transfer role (or ownership) counts: the
delegate approved by the holder is not enough. -/
theorem C01_manager_overrides_holder_delegate {E : Env} {L L' : Ledger} {asset signer : Key}
    {rest : List Key} {m : Delegate}
    (hm : HasManager (L asset).data (some m))
    (h : execute E L (asset :: signer :: rest) .transfer = .ok L') :
    (assetAt L asset).owner = signer ∨ (m.address = signer ∧ HasRole m .transfer) := by
  obtain ⟨a, s, r, g, rest', he, _, _, hc⟩ := C01_transfer_authorised h
  simp only [List.cons.injEq] at he
  obtain ⟨rfl, rfl, _⟩ := he
  rcases hc with hc | ⟨m', x, hm', hx, ha, hr⟩
  · exact Or.inl hc
  · right
    cases hm.unique hm'
    simp only [governing, Option.some.injEq] at hx
    subst hx
    exact ⟨ha, hr⟩

/-! ## Concrete cases -/

/-- The owner transfers. -/
example : (Ex.run Ex.simple [Ex.k 2] [Ex.k 1, Ex.k 2, Ex.k 5, Ex.prog] .transfer).toBool = true := by
  decide +kernel

/-- The holder's delegate transfers. -/
example : (Ex.run Ex.simple [Ex.k 4] [Ex.k 1, Ex.k 4, Ex.k 5, Ex.prog] .transfer).toBool = true := by
  decide +kernel

/-- The manager transfers, the holder's delegate of a managed asset cannot. -/
example : (Ex.run Ex.managed [Ex.k 6] [Ex.k 1, Ex.k 6, Ex.k 5, Ex.prog] .transfer).toBool = true ∧
    Ex.after (Ex.run Ex.managed [Ex.k 4] [Ex.k 1, Ex.k 4, Ex.k 5, Ex.prog] .transfer) (Ex.k 1) =
      .error (.asset .invalidTransferAuthority) ∧
    managerOf (Ex.managed (Ex.k 1)).data = .ok (some ⟨Ex.k 6, 3⟩) := by
  decide +kernel

/-- A stranger cannot, and neither can the owner without a signature. -/
example : Ex.after (Ex.run Ex.simple [Ex.k 5] [Ex.k 1, Ex.k 5, Ex.k 5, Ex.prog] .transfer) (Ex.k 1) =
      .error (.asset .invalidTransferAuthority) ∧
    Ex.after (Ex.run Ex.simple [Ex.k 5] [Ex.k 1, Ex.k 2, Ex.k 5, Ex.prog] .transfer) (Ex.k 1) =
      .error .missingRequiredSignature := by
  decide +kernel

end Verif.Props
