import Verif.Lemmas.Effect
import Verif.Lemmas.Monotone

/-!
# Accounts without data, and the first account
-/

namespace Verif

open Verif.Spec

variable {E : Env} {L L' : Ledger} {accts : List Key} {i : Instr} {x : Key}

theorem group_without_data {a g au : Key} (h : processGroup E L a g au = .ok L') (hx : x ≠ a)
    (he : (L x).data = []) : (L' x).data = [] := by
  by_cases hg : x = g
  · subst hg
    unfold processGroup at h
    inv at h
    obtain ⟨_, _, _, _, _, hi, _⟩ := h
    rw [he] at hi
    exact absurd hi.1 (by decide)
  · have := (processGroup_effect (K := [a, g]) (P := []) h (by simp) (by simp)).data x
      (by simp [hx, hg])
    rw [this.1, he]

theorem ungroup_without_data {a g au : Key} (h : processUngroup E L a g au = .ok L') (hx : x ≠ a)
    (he : (L x).data = []) : (L' x).data = [] := by
  by_cases hg : x = g
  · subst hg
    unfold processUngroup at h
    inv at h
    obtain ⟨_, _, _, _, _, hi, _⟩ := h
    rw [he] at hi
    exact absurd hi.1 (by decide)
  · have := (processUngroup_effect (K := [a, g]) (P := []) h (by simp) (by simp)).data x
      (by simp [hx, hg])
    rw [this.1, he]

theorem burn_without_data {a s : Key} {r g : Option Key} (h : processBurn E L a s r g = .ok L')
    (hx : x ≠ a) (he : (L x).data = []) : (L' x).data = [] := by
  unfold processBurn at h
  inv at h
  obtain ⟨_, _, _, _, _, _, L1, hb, res, _, h⟩ := h
  have e1 : (L1 x).data = [] := by
    unfold burnGroup at hb
    split at hb
    · cases hb; exact he
    · split at hb
      · cases hb
      · rename_i ga
        inv at hb
        obtain ⟨_, _, y, hy, hb⟩ := hb
        by_cases hg : x = ga
        · subst hg
          rw [he] at hy
          rw [show assetGetMut .grouping [] = .ok none by decide +kernel] at hy
          cases hy
          cases hb
        · cases y with
          | none => cases hb
          | some y =>
            inv at hb
            obtain ⟨_, _, _, rfl⟩ := hb
            rw [Ledger.setData_other _ _ hg, he]
  have hc : ∀ {M : Ledger}, closeAccount L1 a (r.getD s) = .ok M → (M x).data = [] := by
    intro M hM
    rw [((Effect.close (E := E) (K := [a]) (P := [r.getD s]) hM (by simp) (by simp)).data x
      (by simp [hx])).1, e1]
  cases res with
  | none => exact hc h
  | some p =>
    inv at h
    obtain ⟨_, _, _, h⟩ := h
    exact hc h

/-- Only the first account gets data when it has none. -/
theorem dispatch_empty (h : dispatch E L i accts = .ok L') (hx : accts.head? ≠ some x)
    (he : (L x).data = []) : (L' x).data = [] := by
  by_cases hd : x ∈ dataKeys i accts
  · have h0 : ∀ a l, accts = a :: l → x ≠ a := by rintro a l rfl rfl; exact hx rfl
    have hs : i.dataPositions = [0] → (L' x).data = [] := by
      intro hp
      exfalso
      unfold dataKeys at hd
      rw [hp] at hd
      cases accts with
      | nil => simp at hd
      | cons a l => exact h0 a l rfl (by simpa using hd)
    cases i with
    | create y =>
      obtain ⟨a, au, o, g, ga, p, s, rest, rfl, hp⟩ := disp_create h
      have hxa := h0 _ _ rfl
      obtain ⟨_, L1, L2, d, types, h1, h2, _, _, _, _, h3⟩ := processCreate_inv hp
      obtain ⟨e1, o1, _⟩ := createPrepare_eff h1
      obtain ⟨e2, _⟩ := allocateAll_eff h2 o1
      have ha : a ∈ [a] := by simp
      have hpm : ∀ y, optAcc E p = some y → y ∈ [p] := fun y hy => optAcc_mem (by simp) hy
      have e3 := ((e1.lift ha hpm).trans (e2.lift ha hpm)).trans
        (Effect.setData (createHeader d o au y) ha)
      have h4 := (e3.data x (by simp [hxa])).1.trans he
      rcases h3 with ⟨_, rfl⟩ | ⟨g', _, h3⟩
      · exact h4
      · exact group_without_data h3 hxa h4
    | burn =>
      obtain ⟨a, s, r, g, rest, rfl, hp⟩ := disp_burn h
      exact burn_without_data hp (h0 _ _ rfl) he
    | update y =>
      obtain ⟨a, au, b, g, p, s, rest, rfl, hp⟩ := disp_update h
      have hxa := h0 _ _ rfl
      obtain ⟨⟨L1, h1, h2, h3, e, _⟩, _⟩ := processUpdate_eff hp
      have h4 : (L1 x).data = [] := by
        by_cases hb : optAcc E b = some x
        · have := (h2 x hb).2.1.2.2.1
          rw [he] at this
          exact List.eq_nil_of_length_eq_zero this
        · rw [h1 x hxa hb, he]
      have hpm : ∀ y, optAcc E p = some y → y ∈ [p] := fun y hy => optAcc_mem (by simp) hy
      rw [((e.lift (K := [a]) (by simp) hpm).data x (by simp [hxa])).1, h4]
    | group =>
      obtain ⟨a, g, au, rest, rfl, hp⟩ := disp_group h
      exact group_without_data hp (h0 _ _ rfl) he
    | ungroup =>
      obtain ⟨a, g, au, rest, rfl, hp⟩ := disp_ungroup h
      exact ungroup_without_data hp (h0 _ _ rfl) he
    | _ => exact hs rfl
  · obtain ⟨k, rest, rfl, e⟩ := dispatch_effect h
    rw [(e.data x hd).1, he]

/-- The first account belongs to the program, or its signature is asked for. -/
theorem dispatch_first_data (h : dispatch E L i accts = .ok L') :
    ∃ a l, accts = a :: l ∧ ((L a).owner = E.program ∨ a ∈ askedFor E i accts) := by
  cases i with
  | close =>
    obtain ⟨b, r, rest, rfl, hp⟩ := disp_close h
    exact ⟨_, _, rfl, .inr (by simp [askedFor])⟩
  | burn =>
    obtain ⟨a, s, r, g, rest, rfl, hp⟩ := disp_burn h
    unfold processBurn at hp
    inv at hp
    exact ⟨_, _, rfl, .inl hp.1⟩
  | create x =>
    obtain ⟨a, au, o, g, ga, p, s, rest, rfl, hp⟩ := disp_create h
    exact ⟨_, _, rfl, .inr (by simp [askedFor])⟩
  | approve x =>
    obtain ⟨a, o, d, rest, rfl, hp⟩ := disp_approve h
    unfold processApprove at hp
    inv at hp
    exact ⟨_, _, rfl, .inl hp.1⟩
  | allocate x =>
    obtain ⟨a, p, s, rest, rfl, hp⟩ := disp_allocate h
    exact ⟨_, _, rfl, .inr (by simp [askedFor])⟩
  | lock =>
    obtain ⟨a, s, rest, rfl, hp⟩ := disp_lock h
    unfold processLock at hp
    inv at hp
    exact ⟨_, _, rfl, .inl hp.2.1⟩
  | revoke x =>
    obtain ⟨a, s, rest, rfl, hp⟩ := disp_revoke h
    unfold processRevoke at hp
    inv at hp
    exact ⟨_, _, rfl, .inl hp.2.1⟩
  | transfer =>
    obtain ⟨a, s, r, g, rest, rfl, hp⟩ := disp_transfer h
    unfold processTransfer at hp
    inv at hp
    exact ⟨_, _, rfl, .inl hp.1⟩
  | unlock =>
    obtain ⟨a, s, rest, rfl, hp⟩ := disp_unlock h
    unfold processUnlock at hp
    inv at hp
    exact ⟨_, _, rfl, .inl hp.2.1⟩
  | unverify =>
    obtain ⟨a, s, rest, rfl, hp⟩ := disp_unverify h
    unfold processUnverify processSetVerified at hp
    inv at hp
    exact ⟨_, _, rfl, .inl hp.2.1⟩
  | update x =>
    obtain ⟨a, au, b, g, p, s, rest, rfl, hp⟩ := disp_update h
    exact ⟨_, _, rfl, .inl (processUpdate_eff hp).2.2.1⟩
  | verify =>
    obtain ⟨a, s, rest, rfl, hp⟩ := disp_verify h
    unfold processVerify processSetVerified at hp
    inv at hp
    exact ⟨_, _, rfl, .inl hp.2.1⟩
  | write x =>
    obtain ⟨a, p, s, rest, rfl, hp⟩ := disp_write h
    exact ⟨_, _, rfl, .inr (by simp [askedFor])⟩
  | group =>
    obtain ⟨a, g, au, rest, rfl, hp⟩ := disp_group h
    unfold processGroup at hp
    inv at hp
    exact ⟨_, _, rfl, .inl hp.2.1⟩
  | ungroup =>
    obtain ⟨a, g, au, rest, rfl, hp⟩ := disp_ungroup h
    unfold processUngroup at hp
    inv at hp
    exact ⟨_, _, rfl, .inl hp.2.1⟩
  | handover =>
    obtain ⟨a, au, na, rest, rfl, hp⟩ := disp_handover h
    unfold processHandover at hp
    inv at hp
    exact ⟨_, _, rfl, .inl hp.2.2.1⟩
  | remove t =>
    obtain ⟨a, au, g, r, rest, rfl, hp⟩ := disp_remove h
    unfold processRemove at hp
    inv at hp
    exact ⟨_, _, rfl, .inl hp.2.1⟩
  | resize s =>
    obtain ⟨a, au, p, y, rest, rfl, hp⟩ := disp_resize h
    unfold processResize at hp
    inv at hp
    exact ⟨_, _, rfl, .inl hp.2.1⟩

end Verif
