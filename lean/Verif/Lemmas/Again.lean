import Verif.Lemmas.Inv
import Verif.Lemmas.Header
import Verif.Props.C15

/-!
# Running an instruction twice

For each instruction that is harmless when repeated: if it succeeds twice in a row, with whatever
privileges, the second run changes nothing.
-/

namespace Verif

open Verif.Spec Verif.Props

theorem setData_self {L : Ledger} {k : Key} {d : Bytes} (h : (L k).data = d) : L.setData k d = L := by
  funext x
  by_cases hx : x = k
  · subst hx; rw [Ledger.setData_same, ← h]
  · rw [Ledger.setData_other _ _ hx]

/-- Writing the data that is already there. -/
theorem setData_view {L : Ledger} {k : Key} {d : Bytes} (h : 168 ≤ (L k).data.length)
    (hl : d.length = (L k).data.length) (hv : view d = view (L k).data) : L.setData k d = L :=
  setData_self (view_injective h (by omega) hv.symm)

section
variable {E E' : Env} {L L1 L2 : Ledger} {a s d : Key}

theorem lock_again {accts : List Key} (hp : E'.program = E.program)
    (h1 : execute E L accts .lock = .ok L1) (h2 : execute E' L1 accts .lock = .ok L2) : False := by
  obtain ⟨a, s, rest, rfl, h⟩ := exec_lock h1
  unfold processLock at h
  inv at h
  obtain ⟨_, ho, hi, _, h⟩ := h
  have hi' := hi.1
  simp only [assetLen] at hi'
  have e : (L1 a).data = setState (L a).data stateLocked := by rw [← h, Ledger.setData_same]
  have v : view (L1 a).data = { view (L a).data with state := stateLocked } := by
    rw [e, view_setState hi']
  refine not_locked h2 rfl (k := a) (by simp) ?_ ⟨?_, ?_⟩ ?_
  · rw [← h, Ledger.setData_same, hp]; exact ho
  · rw [e, length_setState hi']; exact hi.1
  · exact (congrArg (·.disc) v).trans hi.2
  · exact congrArg (·.state) v

theorem unlock_again (h1 : processUnlock E L a s = .ok L1) (h2 : processUnlock E' L1 a s = .ok L2) :
    L2 = L1 := by
  unfold processUnlock at h1 h2
  inv at h1
  inv at h2
  obtain ⟨_, _, hi, _, rfl⟩ := h1
  obtain ⟨_, _, _, _, rfl⟩ := h2
  have hi' := hi.1
  simp only [assetLen] at hi'
  have hl := length_setState hi' stateUnlocked
  apply setData_view
  all_goals simp only [Ledger.setData_same]
  · omega
  · rw [length_setState (by omega)]
  · rw [view_setState (by omega), view_setState hi']

theorem handover_again (h1 : processHandover E L a s d = .ok L1)
    (h2 : processHandover E' L1 a s d = .ok L2) : L2 = L1 := by
  unfold processHandover at h1 h2
  inv at h1
  inv at h2
  obtain ⟨_, _, _, hi, _, _, rfl⟩ := h1
  obtain ⟨_, _, _, _, _, _, rfl⟩ := h2
  have hi' := hi.1
  simp only [assetLen] at hi'
  have hl := length_setAuthority hi' d
  apply setData_view
  all_goals simp only [Ledger.setData_same]
  · omega
  · rw [length_setAuthority (by omega)]
  · rw [view_setAuthority (by omega), view_setAuthority hi']

theorem u8_or_again (x y : UInt8) : x ||| y ||| y = x ||| y := by
  rw [UInt8.or_assoc, UInt8.or_self]

theorem approve_again {x : DelegateInput} (h1 : processApprove E L a s d x = .ok L1)
    (h2 : processApprove E' L1 a s d x = .ok L2) : L2 = L1 := by
  unfold processApprove at h1 h2
  inv at h1
  inv at h2
  obtain ⟨_, hi, _, _, h1⟩ := h1
  obtain ⟨_, hi2, _, _, h2⟩ := h2
  have hi' := hi.1
  simp only [assetLen] at hi'
  have hD : ∀ y : Bytes, hDelegate y = (view y).delegate := fun _ => rfl
  have hR : ∀ y : Bytes, hRoles y = (view y).roles := fun _ => rfl
  split at h1
  · rename_i hc
    cases h1
    have hl := length_setRoles hi' (hRoles (L a).data ||| x.approveMask)
    have hv := view_setRoles hi' (hRoles (L a).data ||| x.approveMask)
    simp only [Ledger.setData_same] at h2
    rw [if_pos (by rw [hD, hv]; exact hc)] at h2
    cases h2
    apply setData_view
    all_goals simp only [Ledger.setData_same]
    · omega
    · rw [length_setRoles (by omega)]
    · have e : hRoles (setRoles (L a).data (hRoles (L a).data ||| x.approveMask)) =
          hRoles (L a).data ||| x.approveMask := congrArg AssetView.roles hv
      rw [view_setRoles (by omega), e, u8_or_again, hv]
  · cases h1
    have hl := length_setDelegate hi' d x.approveMask
    have hv := view_setDelegate hi' d x.approveMask
    simp only [Ledger.setData_same] at h2
    split at h2
    · cases h2
      apply setData_view
      all_goals simp only [Ledger.setData_same]
      · omega
      · rw [length_setRoles (by omega)]
      · rw [view_setRoles (by omega), hR, hv]
        simp only [UInt8.or_self]
    · cases h2
      apply setData_view
      all_goals simp only [Ledger.setData_same]
      · omega
      · rw [length_setDelegate (by omega)]
      · rw [view_setDelegate (by omega), hv]

theorem disableRoles_and (m : UInt8) (rs : List Role) :
    disableRoles m rs = m &&& disableRoles 255 rs := by
  have key : ∀ (rs : List Role) (m n : UInt8), disableRoles (m &&& n) rs = m &&& disableRoles n rs := by
    intro rs
    induction rs with
    | nil => intro m n; rfl
    | cons r rs ih =>
      intro m n
      show disableRoles (m &&& n &&& ~~~ r.mask) rs = _
      rw [UInt8.and_assoc, ih]
      rfl
  rw [← key, show m &&& 255 = m from UInt8.and_neg_one (a := m)]

theorem disableRoles_again (m : UInt8) (rs : List Role) :
    disableRoles (disableRoles m rs) rs = disableRoles m rs := by
  rw [disableRoles_and (disableRoles m rs), disableRoles_and m, UInt8.and_assoc, UInt8.and_self]

theorem revoke_again {x : DelegateInput} (h1 : processRevoke E L a s x = .ok L1)
    (h2 : processRevoke E' L1 a s x = .ok L2) : L2 = L1 := by
  unfold processRevoke at h1 h2
  inv at h1
  inv at h2
  obtain ⟨_, _, hi, _, h1⟩ := h1
  obtain ⟨_, _, hi2, _, h2⟩ := h2
  have hi' := hi.1
  simp only [assetLen] at hi'
  have hD : ∀ y : Bytes, hDelegate y = (view y).delegate := fun _ => rfl
  have hR : ∀ y : Bytes, hRoles y = (view y).roles := fun _ => rfl
  have hl := length_setDelegate hi' Key.default 0
  have hv := view_setDelegate hi' Key.default 0
  cases x with
  | all =>
    simp only at h1 h2
    cases h1
    cases h2
    apply setData_view
    all_goals simp only [Ledger.setData_same]
    · omega
    · rw [length_setDelegate (by omega)]
    · rw [view_setDelegate (by omega), hv]
  | some rs =>
    simp only at h1 h2
    split at h1
    · rename_i hc
      split at h1
      · cases h1
        rw [if_neg (by rw [Ledger.setData_same, hD, hv]; simp)] at h2
        cases h2; rfl
      · rename_i hr
        cases h1
        have hl := length_setRoles hi' (disableRoles (hRoles (L a).data) rs)
        have hv := view_setRoles hi' (disableRoles (hRoles (L a).data) rs)
        simp only [Ledger.setData_same] at h2
        have e : hRoles (setRoles (L a).data (disableRoles (hRoles (L a).data) rs)) =
            disableRoles (hRoles (L a).data) rs := by rw [hR, hv]
        rw [if_pos (by rw [hD, hv]; exact hc), e, disableRoles_again, if_neg hr] at h2
        cases h2
        apply setData_view
        all_goals simp only [Ledger.setData_same]
        · omega
        · rw [length_setRoles (by omega)]
        · rw [view_setRoles (by omega), hv]
    · rename_i hc
      cases h1
      rw [if_neg hc] at h2
      cases h2; rfl

theorem transfer_again {r : Key} {g : Option Key} (h1 : processTransfer E L a s r g = .ok L1)
    (h2 : processTransfer E' L1 a s r g = .ok L2) : L2 = L1 := by
  have hO : ∀ y : Bytes, hOwner y = (view y).owner := fun _ => rfl
  unfold processTransfer at h1 h2
  inv at h1
  inv at h2
  obtain ⟨_, _, hi, _, _, _, _, _, _, h1⟩ := h1
  obtain ⟨_, _, _, _, _, _, _, _, _, h2⟩ := h2
  have hi' := hi.1
  simp only [assetLen] at hi'
  have ho : hOwner (L1 a).data = r := by
    split at h1
    · rename_i h; cases h1; exact h
    · inv at h1
      obtain ⟨_, rfl⟩ := h1
      have := length_setOwner hi' r
      rw [Ledger.setData_same, hO, view_setDelegate (by omega), view_setOwner hi']
  rw [if_pos ho] at h2
  cases h2; rfl

theorem close_again {r : Key} (hp : E'.program ≠ Key.system) (h1 : processClose E L a r = .ok L1)
    (h2 : processClose E' L1 a r = .ok L2) : False := by
  unfold processClose closeAccount at h1 h2
  inv at h1
  inv at h2
  obtain ⟨_, _, _, h1⟩ := h1
  obtain ⟨_, ho, _⟩ := h2
  split at h1
  · cases h1
  · split at h1
    · cases h1
    · cases h1
      rw [Ledger.set_same] at ho
      exact hp ho.symm

theorem burn_again {r g : Option Key} (hp : E'.program ≠ Key.system)
    (h1 : processBurn E L a s r g = .ok L1) (h2 : processBurn E' L1 a s r g = .ok L2) : False := by
  have hc : ∀ {M : Ledger} {t : Key}, closeAccount M a t = .ok L1 → (L1 a).owner = Key.system := by
    intro M t h
    unfold closeAccount at h
    split at h
    · cases h
    · split at h
      · cases h
      · cases h
        rw [Ledger.set_same]
  unfold processBurn at h1 h2
  inv at h2
  refine hp (h2.1.symm.trans ?_)
  inv at h1
  obtain ⟨_, _, _, _, _, _, M, _, o, _, h1⟩ := h1
  split at h1
  · inv at h1
    obtain ⟨_, _, _, h1⟩ := h1
    exact hc h1
  · exact hc h1

theorem group_again {g : Key} (hg : g ≠ Key.default) (h1 : processGroup E L a g s = .ok L1)
    (h2 : processGroup E' L1 a g s = .ok L2) : False := by
  have hG : ∀ y : Bytes, hGroup y = (view y).group := fun _ => rfl
  unfold processGroup at h1 h2
  inv at h1
  inv at h2
  obtain ⟨_, _, _, hi, hne, _, _, _, o, _, h1⟩ := h1
  obtain ⟨_, _, _, _, _, _, h2, _⟩ := h2
  have hi' := hi.1
  simp only [assetLen] at hi'
  split at h1
  · cases h1
  · inv at h1
    obtain ⟨_, _, _, _, rfl⟩ := h1
    rw [Ledger.setData_other _ _ (Ne.symm hne), Ledger.setData_same, hG, view_setGroup hi'] at h2
    exact hg h2

theorem ungroup_again {g : Key} (hg : g ≠ Key.default) (h1 : processUngroup E L a g s = .ok L1)
    (h2 : processUngroup E' L1 a g s = .ok L2) : False := by
  have hG : ∀ y : Bytes, hGroup y = (view y).group := fun _ => rfl
  unfold processUngroup at h1 h2
  inv at h1
  inv at h2
  obtain ⟨_, _, _, hi, hne, _, _, o, _, h1⟩ := h1
  obtain ⟨_, _, _, _, _, _, h2, _⟩ := h2
  have hi' := hi.1
  simp only [assetLen] at hi'
  split at h1
  · cases h1
  · inv at h1
    obtain ⟨_, _, _, rfl⟩ := h1
    rw [Ledger.setData_other _ _ (Ne.symm hne), Ledger.setData_same, hG, view_setGroup hi'] at h2
    exact hg h2.symm

end
end Verif
