import Verif.Spec.Custody
import Verif.Lemmas.Proxy
import Verif.Props.C29

/-!
# Steps of the bridge
-/

namespace Verif

open Spec

section
variable {E : Env} {C : BridgeConsts} {S S' : Chain} {L L' : Ledger}
  {derive : Bytes → UInt8 → Key → Option Key} {program assetId vault asset mint : Key}

/-- No manager means no delegate unless the holder approved one. -/
theorem Spec.Unmanaged.delegated {A : Asset} (h : Unmanaged A) {s : Key} {r : Role}
    (hd : A.Delegated s r) : A.delegate ≠ Key.default ∧ A.delegate = s := by
  obtain ⟨x, hx, ha, hr⟩ := hd
  unfold governing Asset.manager at hx
  cases hl : lookup .manager A.exts with
  | some p =>
    obtain rfl := h p hl
    rw [hl] at hx
    have : x = ⟨keyAt [] 0, byteAt [] 32⟩ := (Option.some.inj hx).symm
    subst this
    exfalso
    cases r with
    | none => exact hr
    | transfer => exact hr (by decide)
    | lock => exact hr (by decide)
    | burn => exact hr (by decide)
  | none =>
    rw [hl] at hx
    simp only [Option.map_none, Asset.holderDelegate] at hx
    split at hx
    · cases hx
    · rename_i hne
      cases hx
      exact ⟨hne, ha⟩

theorem unmanaged_setExt {A : Asset} (h : Unmanaged A) {t : ExtType} {p : Bytes}
    (ht : t = .manager → p = []) : ∀ q, lookup .manager (setExt t p A.exts) = some q → q = [] := by
  intro q hq
  by_cases e : t = .manager
  · subst e
    rw [lookup_setExt_same] at hq
    cases hq
    exact ht rfl
  · rw [lookup_setExt_ne (Ne.symm e)] at hq
    exact h q hq

/-- No move makes anybody the manager. -/
theorem unmanaged_move {A A' : Asset} {k : Key} {accts : List Key} {i : Instr} (h : Unmanaged A)
    (hm : Move E accts k i A A') : Unmanaged A' := by
  cases hm with
  | update _ x s rest e p ha hs hau hmut hx he hp =>
    refine unmanaged_setExt h fun ht => ?_
    unfold UpdatesTo at hp
    split at hp
    · obtain ⟨h1, _, h3, _⟩ := hp
      cases ho : lookup e.ty A.exts with
      | none => exact absurd ho (h3 (Or.inl ht))
      | some o =>
        rw [ho, ht] at h1
        rw [ht] at ho
        have := h o ho
        subst this
        exact absurd (h1.2.2 [] rfl) (by decide)
    · exact hp.1
  | updateFrom _ x s b rest t p ha hs hau hmut hx hb ht hp =>
    refine unmanaged_setExt h fun ht => ?_
    obtain ⟨_, _, _, _, _, _, h1, _, h3, _⟩ := hp
    cases ho : lookup t A.exts with
    | none => exact absurd ho (h3 (Or.inl ht))
    | some o =>
      rw [ho, ht] at h1
      rw [ht] at ho
      have := h o ho
      subst this
      exact absurd (h1.2.2 [] rfl) (by decide)
  | remove _ t s rest ha hs hau hmut ht =>
    intro q hq
    rw [lookup_removeExt_ne (Ne.symm ht.2.1)] at hq
    exact h q hq
  | verify _ c rest p q => exact unmanaged_setExt h (by intro e; cases e)
  | unverify _ c rest p q => exact unmanaged_setExt h (by intro e; cases e)
  | memberIn _ _ p => exact unmanaged_setExt h (by intro e; cases e)
  | memberOut _ _ p => exact unmanaged_setExt h (by intro e; cases e)
  | _ => exact h

/-- Without the signature of the vault an asset of the vault stays with it. -/
theorem held_move {A A' : Asset} {accts : List Key} {i : Instr} (hu : Unmanaged A)
    (ho : A.owner = vault) (hd : A.delegate = Key.default) (hv : E.signer vault = false)
    (hm : Move E accts asset i A A') : A'.owner = vault ∧ A'.delegate = Key.default := by
  have no : ∀ s, E.signer s = true → A.owner ≠ s := by
    intro s hs e
    rw [← e, ho, hv] at hs
    cases hs
  cases hm with
  | transfer _ s r rest ha hs hau =>
    rcases hau with h | h
    · exact absurd h (no s hs)
    · exact absurd hd (hu.delegated h).1
  | approve _ x o d roles rest ha hs h => exact absurd h (no o hs)
  | revoke _ x s d roles rest ha hs hau =>
    rcases hau with h | h
    · exact absurd h (no s hs)
    · exact absurd hd h.1
  | _ => exact ⟨ho, hd⟩

/-- The asset program leaves a vault alone. -/
theorem vault_untouched {accts : List Key} {i : Instr} (h : execute E L accts i = .ok L')
    (ho : (L vault).owner = program) (hp : program ≠ E.program) (hd : (L vault).data ≠ []) :
    (L' vault).data = (L vault).data ∧ (L' vault).owner = (L vault).owner := by
  by_contra hc
  have hx : (L' vault).data ≠ (L vault).data ∨ (L' vault).owner ≠ (L vault).owner := by
    by_cases h1 : (L' vault).data = (L vault).data
    · exact Or.inr fun h2 => hc ⟨h1, h2⟩
    · exact Or.inl h1
  rcases Props.C29_other_programs h vault hx with h1 | ⟨_, h2, _⟩
  · exact hp (ho.symm.trans h1)
  · exact hd h2

/-- What a successful Bridge instruction amounts to. -/
theorem bridge_ok {accts : List Key} (h : bridgeInstr E C S accts = .ok S') :
    ∃ asset vault owner token mint rest group act, accts = asset :: vault :: owner :: token :: mint :: rest ∧
      E.signer owner = true ∧ (S.ledger asset).owner = C.assetId ∧
      (S.ledger vault).owner = E.program ∧ 36 ≤ (S.ledger vault).data.length ∧
      keyAt (S.ledger vault).data 3 = mint ∧
      bridgedAddress E mint (byteAt (S.ledger vault).data 35) = some asset ∧
      byteAt (S.ledger vault).data 1 = (if act then 1 else 0) ∧
      bridgeSwap E C S act asset vault owner mint group = .ok S' := by
  unfold bridgeInstr at h
  split at h
  · rename_i asset vault owner token mint metadata _ _ _ _ _ _ _ _ _ _ _ _ _ group rest
    unfold processBridge at h
    inv at h
    obtain ⟨h1, _, h3, h4, v, hv, _, h6, h7, h⟩ := h
    split at h
    · cases h
    · inv at h
      obtain ⟨_, _, h⟩ := h
      unfold readVault at hv
      split at hv
      · cases hv
      · split at hv
        · cases hv
        · rename_i hl
          split at hv
          · rename_i hb
            cases hv
            exact ⟨asset, vault, owner, token, mint, _, _, false, rfl, h1, h3, h4, by omega, h6, h7,
              hb, h⟩
          · split at hv
            · rename_i hb
              cases hv
              exact ⟨asset, vault, owner, token, mint, _, _, true, rfl, h1, h3, h4, by omega, h6, h7,
                hb, h⟩
            · cases hv
  · cases h

end

end Verif
