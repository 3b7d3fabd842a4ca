import Verif.Lemmas.Inv
import Verif.Examples

/-!
# C06 — approve grants exactly the requested roles
-/

namespace Verif.Spec

/-- The roles named by the argument of Approve and Revoke. -/
def Requested : DelegateInput → Role → Prop
  | .all, _ => True
  | .some rs, r => r ∈ rs

end Verif.Spec

namespace Verif.Props

open Verif Verif.Spec

theorem or_and_ne_zero (a b c : UInt8) : (a ||| b) &&& c ≠ 0 ↔ a &&& c ≠ 0 ∨ b &&& c ≠ 0 := by
  have e : (a ||| b) &&& c = (a &&& c) ||| (b &&& c) := by
    apply UInt8.toBitVec_inj.mp
    simp only [UInt8.toBitVec_and, UInt8.toBitVec_or]
    ext i hi
    simp [Bool.and_or_distrib_right]
  rw [e, ne_eq, UInt8.or_eq_zero_iff]
  tauto

theorem hasRole_iff (k : Key) (m : UInt8) (r : Role) :
    HasRole ⟨k, m⟩ r ↔ m &&& r.mask ≠ 0 := by
  cases r <;> simp [HasRole, Role.mask]

theorem foldl_or (rs : List Role) (m c : UInt8) :
    rs.foldl (fun all r => all ||| r.mask) m &&& c ≠ 0 ↔
      m &&& c ≠ 0 ∨ ∃ r ∈ rs, r.mask &&& c ≠ 0 := by
  induction rs generalizing m with
  | nil => simp
  | cons r rs ih =>
    rw [List.foldl_cons, ih, or_and_ne_zero]
    simp only [List.mem_cons, exists_eq_or_imp]
    tauto

theorem mask_and (r r' : Role) : r.mask &&& r'.mask ≠ 0 ↔ r = r' ∧ r ≠ .none := by
  cases r <;> cases r' <;> decide

theorem approveMask_and (x : DelegateInput) (r : Role) :
    x.approveMask &&& r.mask ≠ 0 ↔ Requested x r ∧ r ≠ .none := by
  cases x with
  | all =>
    simp only [DelegateInput.approveMask, Requested, true_and]
    cases r <;> decide
  | some rs =>
    simp only [DelegateInput.approveMask, Requested, foldl_or, mask_and]
    constructor
    · rintro (h | ⟨r', h1, rfl, h2⟩)
      · simp at h
      · exact ⟨h1, h2⟩
    · rintro ⟨h1, h2⟩
      exact Or.inr ⟨r, h1, rfl, h2⟩

/-- Authorisation, effect and frame of a successful Approve. -/
theorem C06_approve {E : Env} {L L' : Ledger} {accts : List Key} {x : DelegateInput}
    (h : execute E L accts (.approve x) = .ok L') :
    ∃ asset owner delegate rest, accts = asset :: owner :: delegate :: rest ∧
      IsAsset E.program L asset ∧ (assetAt L asset).owner = owner ∧ E.signer owner = true ∧
      OnlyData L L' asset ∧
      ∃ roles, assetAt L' asset = { assetAt L asset with delegate := delegate, roles := roles } ∧
        ∀ r, HasRole ⟨delegate, roles⟩ r ↔
          (Requested x r ∧ r ≠ .none) ∨
          (holderDelegate (assetAt L asset) = some ⟨delegate, (assetAt L asset).roles⟩ ∧
            HasRole ⟨delegate, (assetAt L asset).roles⟩ r) := by
  obtain ⟨a, o, k, rest, rfl, hp⟩ := exec_approve h
  unfold processApprove at hp
  inv at hp
  obtain ⟨ho, hi, how, hs, hp⟩ := hp
  have hi1 : 168 ≤ (L a).data.length := hi.1
  refine ⟨a, o, k, rest, rfl, ⟨ho, hi.1, hi.2⟩, how, hs, ?_⟩
  by_cases hc : hDelegate (L a).data ≠ Key.default ∧ hDelegate (L a).data = k
  · rw [if_pos hc] at hp
    obtain rfl := pure_ok.mp hp
    refine ⟨onlyData_setData _ _ _ (length_setRoles hi1 _),
      hRoles (L a).data ||| x.approveMask, ?_, fun r => ?_⟩
    rotate_left
    · rw [hasRole_iff, or_and_ne_zero, approveMask_and, hasRole_iff, Or.comm]
      have : holderDelegate (assetAt L a) = some ⟨k, (assetAt L a).roles⟩ := by
        unfold holderDelegate
        rw [if_neg (by exact hc.1), ← hc.2]; rfl
      rw [this]
      simp only [true_and]
      rfl
    · unfold assetAt
      rw [Ledger.setData_same]
      simp only
      rw [view_setRoles hi1, ← hc.2]
      rfl
  · rw [if_neg hc] at hp
    obtain rfl := pure_ok.mp hp
    refine ⟨onlyData_setData _ _ _ (length_setDelegate hi1 _ _), x.approveMask, ?_, fun r => ?_⟩
    · unfold assetAt
      rw [Ledger.setData_same]
      exact view_setDelegate hi1 _ _
    · rw [hasRole_iff, approveMask_and]
      have : holderDelegate (assetAt L a) ≠ some ⟨k, (assetAt L a).roles⟩ := by
        intro he
        unfold holderDelegate at he
        split at he
        · cases he
        · rename_i hd
          simp only [Option.some.injEq, Delegate.mk.injEq] at he
          exact hc ⟨hd, he.1⟩
      simp only [this, false_and, or_false]

/-- Unless the given key is the default key, it is the holder's delegate afterwards. -/
theorem C06_is_delegate {E : Env} {L L' : Ledger} {asset owner delegate : Key} {rest : List Key}
    {x : DelegateInput} (hk : delegate ≠ Key.default)
    (h : execute E L (asset :: owner :: delegate :: rest) (.approve x) = .ok L') :
    ∃ roles, holderDelegate (assetAt L' asset) = some ⟨delegate, roles⟩ ∧
      ∀ r, r ≠ .none → Requested x r → HasRole ⟨delegate, roles⟩ r := by
  obtain ⟨a, o, k, rest', he, _, _, _, _, roles, hv, hr⟩ := C06_approve h
  simp only [List.cons.injEq] at he
  obtain ⟨rfl, rfl, rfl, _⟩ := he
  refine ⟨roles, ?_, fun r h1 h2 => (hr r).mpr (Or.inl ⟨h2, h1⟩)⟩
  rw [hv]
  simp [holderDelegate, hk]

/-! ## Concrete cases -/

/-- A new delegate gets only the requested role, an existing one keeps its roles. -/
example :
    Ex.after (Ex.run Ex.simple [Ex.k 2] [Ex.k 1, Ex.k 2, Ex.k 5] (.approve (.some [.burn]))) (Ex.k 1) =
      .ok (Ex.owned (Ex.header 0 0 1 (Ex.k 2) Key.default (Ex.k 3) (Ex.k 5) 4 [65, 66])) ∧
    Ex.after (Ex.run Ex.simple [Ex.k 2] [Ex.k 1, Ex.k 2, Ex.k 4] (.approve (.some [.burn]))) (Ex.k 1) =
      .ok (Ex.owned (Ex.header 0 0 1 (Ex.k 2) Key.default (Ex.k 3) (Ex.k 4) 7 [65, 66])) ∧
    Ex.k 5 ≠ Key.default := by
  decide +kernel

/-- Approving the default key succeeds but leaves the asset without a delegate, so the side
condition of `C06_is_delegate` is needed. -/
theorem C06_default_key_is_no_delegate :
    ∃ (E : Env) (L L' : Ledger) (accts : List Key),
      execute E L accts (.approve .all) = .ok L' ∧ accts[2]? = some Key.default ∧
      (assetAt L' (Ex.k 1)).roles = 7 ∧ holderDelegate (assetAt L' (Ex.k 1)) = none := by
  have h : ∃ a, Ex.after (Ex.run Ex.simple [Ex.k 2] [Ex.k 1, Ex.k 2, Key.default] (.approve .all))
      (Ex.k 1) = .ok a ∧ (view a.data).roles = 7 ∧ holderDelegate (view a.data) = none :=
    ⟨Ex.owned (Ex.header 0 0 1 (Ex.k 2) Key.default (Ex.k 3) Key.default 7 [65, 66]), by
      decide +kernel⟩
  obtain ⟨a, h1, h2, h3⟩ := h
  unfold Ex.after at h1
  cases hr : Ex.run Ex.simple [Ex.k 2] [Ex.k 1, Ex.k 2, Key.default] (.approve .all) with
  | error e => rw [hr] at h1; cases h1
  | ok L' =>
    rw [hr] at h1
    simp only [Except.map, Except.ok.injEq] at h1
    refine ⟨_, _, L', _, hr, rfl, ?_, ?_⟩ <;> unfold assetAt <;> rw [h1]
    · exact h2
    · exact h3

end Verif.Props
