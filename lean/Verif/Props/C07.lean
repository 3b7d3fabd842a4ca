import Verif.Props.C06

/-!
# C07 — revoke removes exactly the requested roles
-/

namespace Verif.Props

open Verif Verif.Spec

/-- The holder's delegate has the role. -/
def HolderGrants (a : AssetView) (r : Role) : Prop :=
  ∃ x, holderDelegate a = some x ∧ HasRole x r

theorem disableRoles_and (rs : List Role) (m : UInt8) (r : Role) :
    disableRoles m rs &&& r.mask ≠ 0 ↔ m &&& r.mask ≠ 0 ∧ r ∉ rs := by
  unfold disableRoles
  induction rs generalizing m with
  | nil => simp
  | cons a rs ih =>
    rw [List.foldl_cons, ih, UInt8.and_assoc]
    have key : ∀ a r : Role, ~~~ a.mask &&& r.mask = if a = r then 0 else r.mask := by
      intro a r; cases a <;> cases r <;> decide
    rw [key]
    by_cases hr : a = r
    · subst hr; simp
    · rw [if_neg hr]
      simp only [List.mem_cons, not_or]
      have : r ≠ a := fun h => hr h.symm
      tauto

theorem disableRoles_le (rs : List Role) (m : UInt8) (h : m ≤ 7)
    (hn : ∀ r : Role, disableRoles m rs &&& r.mask = 0) : disableRoles m rs = 0 := by
  have hle : ∀ (a b : UInt8), a ≤ 7 → a &&& b ≤ 7 := by
    intro a b ha
    rw [UInt8.le_iff_toNat_le] at *
    rw [UInt8.toNat_and]
    exact Nat.le_trans Nat.and_le_left ha
  have h7 : disableRoles m rs ≤ 7 := by
    unfold disableRoles
    clear hn
    induction rs generalizing m with
    | nil => exact h
    | cons a rs ih => rw [List.foldl_cons]; exact ih _ (hle _ _ h)
  have h1 := hn .transfer
  have h2 := hn .lock
  have h3 := hn .burn
  clear hn
  generalize disableRoles m rs = y at *
  have key : ∀ n : Fin 8, UInt8.ofNat n &&& 1 = 0 → UInt8.ofNat n &&& 2 = 0 →
      UInt8.ofNat n &&& 4 = 0 → UInt8.ofNat n = 0 := by decide
  have hy : y.toNat < 8 := by
    rw [UInt8.le_iff_toNat_le] at h7
    have e : (7 : UInt8).toNat = 7 := rfl
    omega
  have := key ⟨y.toNat, hy⟩
  simp only [UInt8.ofNat_toNat] at this
  exact this h1 h2 h3

/-- Authorisation, effect and frame of a successful Revoke. -/
theorem C07_revoke {E : Env} {L L' : Ledger} {accts : List Key} {x : DelegateInput}
    (h : execute E L accts (.revoke x) = .ok L') :
    ∃ asset signer rest, accts = asset :: signer :: rest ∧
      IsAsset E.program L asset ∧ E.signer signer = true ∧
      ((assetAt L asset).owner = signer ∨
        ∃ y, holderDelegate (assetAt L asset) = some y ∧ y.address = signer) ∧
      OnlyData L L' asset ∧
      (∃ k roles, assetAt L' asset = { assetAt L asset with delegate := k, roles := roles } ∧
        (k = (assetAt L asset).delegate ∨ (k = Key.default ∧ roles = 0))) ∧
      (∀ r, HolderGrants (assetAt L' asset) r ↔
        HolderGrants (assetAt L asset) r ∧ ¬ Requested x r) ∧
      (x = .all ∨ (holderDelegate (assetAt L asset) ≠ none ∧ (assetAt L asset).roles ≤ 7 ∧
          ∀ r, ¬ HolderGrants (assetAt L' asset) r) →
        (assetAt L' asset).delegate = Key.default ∧ (assetAt L' asset).roles = 0) := by
  obtain ⟨a, s, rest, rfl, hp⟩ := exec_revoke h
  unfold processRevoke at hp
  inv at hp
  obtain ⟨hs, ho, hi, hau, hp⟩ := hp
  have hi1 : 168 ≤ (L a).data.length := hi.1
  refine ⟨a, s, rest, rfl, ⟨ho, hi.1, hi.2⟩, hs, ?_, ?_⟩
  · rcases hau with h1 | ⟨h1, h2⟩
    · exact Or.inl h1
    · exact Or.inr ⟨⟨hDelegate (L a).data, hRoles (L a).data⟩, by
        unfold holderDelegate; rw [if_neg (by exact h1)]; rfl, h2⟩
  -- the three outcomes
  have hclear : ∀ L1 : Ledger, L1 = L.setData a (setDelegate (L a).data Key.default 0) →
      OnlyData L L1 a ∧
      assetAt L1 a = { assetAt L a with delegate := Key.default, roles := 0 } := by
    rintro _ rfl
    refine ⟨onlyData_setData _ _ _ (length_setDelegate hi1 _ _), ?_⟩
    unfold assetAt
    rw [Ledger.setData_same]
    exact view_setDelegate hi1 _ _
  have hnone : ∀ v : AssetView, v.delegate = Key.default → ∀ r, ¬ HolderGrants v r := by
    rintro v hv r ⟨y, hy, _⟩
    simp [holderDelegate, hv] at hy
  have hgr : ∀ v : AssetView, v.delegate ≠ Key.default → ∀ r,
      HolderGrants v r ↔ v.roles &&& r.mask ≠ 0 := by
    intro v hv r
    rw [← hasRole_iff v.delegate]
    constructor
    · rintro ⟨y, hy, hr⟩
      unfold holderDelegate at hy
      rw [if_neg hv] at hy
      cases hy
      exact hr
    · intro hr
      exact ⟨_, by unfold holderDelegate; rw [if_neg hv], hr⟩
  cases x with
  | all =>
    obtain ⟨hod, hv⟩ := hclear L' (pure_ok.mp hp).symm
    refine ⟨hod, ⟨_, _, hv, Or.inr ⟨rfl, rfl⟩⟩, fun r => ?_, fun _ => ?_⟩
    · simp only [Requested, not_true, and_false, iff_false]
      exact hnone _ (by rw [hv]) r
    · rw [hv]; exact ⟨rfl, rfl⟩
  | some rs =>
    simp only [reduceCtorEq, false_or]
    by_cases hd : hDelegate (L a).data ≠ Key.default
    · simp only [if_pos hd] at hp
      by_cases hz : disableRoles (hRoles (L a).data) rs = 0
      · rw [if_pos hz] at hp
        obtain ⟨hod, hv⟩ := hclear L' (pure_ok.mp hp).symm
        refine ⟨hod, ⟨_, _, hv, Or.inr ⟨rfl, rfl⟩⟩, fun r => ?_, fun _ => ?_⟩
        · have h1 := hnone (assetAt L' a) (by rw [hv]) r
          have h2 := hgr (assetAt L a) hd r
          have h3 := disableRoles_and rs (hRoles (L a).data) r
          rw [hz] at h3
          simp only [UInt8.zero_and, ne_eq, not_true, false_iff] at h3
          rw [h2]
          simp only [h1, false_iff]
          exact h3
        · rw [hv]; exact ⟨rfl, rfl⟩
      · rw [if_neg hz] at hp
        obtain rfl := pure_ok.mp hp
        have hv : assetAt (L.setData a (setRoles (L a).data (disableRoles (hRoles (L a).data) rs))) a =
            { assetAt L a with roles := disableRoles (hRoles (L a).data) rs } := by
          unfold assetAt
          rw [Ledger.setData_same]
          exact view_setRoles hi1 _
        refine ⟨onlyData_setData _ _ _ (length_setRoles hi1 _), ⟨_, _, hv, Or.inl rfl⟩,
          fun r => ?_, ?_⟩
        · rw [hv, hgr _ hd, hgr (assetAt L a) hd]
          exact disableRoles_and rs _ r
        · rintro ⟨_, h7, hall⟩
          exfalso
          apply hz
          refine disableRoles_le rs _ h7 fun r => ?_
          have := hall r
          rw [hv, hgr _ hd] at this
          exact not_not.mp this
    · simp only [if_neg hd] at hp
      obtain rfl := pure_ok.mp hp
      have hd' : (assetAt L a).delegate = Key.default := not_not.mp hd
      refine ⟨onlyData_refl _ _, ⟨_, _, rfl, Or.inl rfl⟩, fun r => ?_, ?_⟩
      · simp only [hnone _ hd' r, false_and]
      · rintro ⟨h1, _, _⟩
        exact absurd (by simp [holderDelegate, hd']) h1

/-! ## Concrete cases -/

/-- The delegate gives up a role; the owner revokes the last ones. -/
example :
    Ex.after (Ex.run Ex.simple [Ex.k 4] [Ex.k 1, Ex.k 4] (.revoke (.some [.lock]))) (Ex.k 1) =
      .ok (Ex.owned (Ex.header 0 0 1 (Ex.k 2) Key.default (Ex.k 3) (Ex.k 4) 5 [65, 66])) ∧
    Ex.after (Ex.run Ex.simple [Ex.k 2] [Ex.k 1, Ex.k 2]
        (.revoke (.some [.lock, .transfer, .burn]))) (Ex.k 1) =
      .ok (Ex.owned (Ex.header 0 0 1 (Ex.k 2) Key.default (Ex.k 3) Key.default 0 [65, 66])) ∧
    Ex.after (Ex.run Ex.simple [Ex.k 5] [Ex.k 1, Ex.k 5] (.revoke .all)) (Ex.k 1) =
      .error (.asset .invalidAuthority) := by
  decide +kernel

end Verif.Props
