import Verif.Lemmas.Except
import Verif.Lemmas.First
import Verif.Lemmas.Header
import Verif.Spec.Auth

/-!
# Inversion of successful instructions
-/

namespace Verif

open Verif.Spec

/-! ## Execution -/

theorem lockedScan_false {E : Env} {L : Ledger} {ks : List Key}
    (h : lockedScan E L ks = .ok false) :
    ∀ k ∈ ks, (L k).owner = E.program → (L k).data ≠ [] → hDisc (L k).data = discAsset →
      hState (L k).data ≠ stateLocked := by
  induction ks with
  | nil => simp
  | cons k ks ih =>
    rw [lockedScan] at h
    intro k' hk' ho hd hc
    split at h
    · rename_i hcond
      simp only [require_bind_ok] at h
      obtain ⟨h1, h2⟩ := h
      split at h2
      · simp [pure, Except.pure] at h2
      · rename_i hs
        rcases List.mem_cons.mp hk' with rfl | hm
        · exact hs
        · exact ih h2 k' hm ho hd hc
    · rename_i hcond
      rcases List.mem_cons.mp hk' with rfl | hm
      · exact absurd ⟨ho, hd, hc⟩ hcond
      · exact ih h k' hm ho hd hc

/-- What a successful execution went through. -/
theorem execute_ok {E : Env} {L L' : Ledger} {accts : List Key} {i : Instr}
    (h : execute E L accts i = .ok L') :
    proxiedCheck E L (accts.take 7) = .ok () ∧
    (i.blockedByLock = true → lockedScan E L (accts.take 7) = .ok false) ∧
    dispatch E L i (accts.take 7) = .ok L' ∧
    ∀ k ∈ accts, changeAllowed E k (L k) (L' k) = true := by
  unfold execute processInstr at h
  simp only [bind_ok, ite_ok_error, pure_ok] at h
  obtain ⟨L1, ⟨⟨⟩, hp, locked, hl, ⟨⟩, hr, hd⟩, hall, rfl⟩ := h
  rw [require_ok] at hr
  refine ⟨hp, fun hb => ?_, hd, fun k hk => ?_⟩
  · cases locked with
    | false => exact hl
    | true => exact absurd ⟨rfl, hb⟩ hr
  · exact List.all_eq_true.mp hall k hk

/-- An asset among the accounts of a blocked instruction is not locked. -/
theorem not_locked {E : Env} {L L' : Ledger} {accts : List Key} {i : Instr}
    (h : execute E L accts i = .ok L') (hb : i.blockedByLock = true) {k : Key}
    (hk : k ∈ accts.take 7) (ho : (L k).owner = E.program) (hi : Initialized (L k).data) :
    hState (L k).data ≠ stateLocked := by
  refine lockedScan_false ((execute_ok h).2.1 hb) k hk ho ?_ hi.2
  intro hn
  have := hi.1
  rw [hn] at this
  simp [assetLen] at this

theorem proxiedCheck_ok {E : Env} {L : Ledger} {k : Key} {ks : List Key}
    (h : proxiedCheck E L (k :: ks) = .ok ()) (ho : (L k).owner = E.program)
    (hd : (L k).data ≠ []) (hs : hStandard (L k).data = Standard.proxied.toU8) :
    E.signer k = true := by
  unfold proxiedCheck at h
  simp only [ho, ne_eq, hd, not_false_eq_true, and_self, if_true, require_bind_ok, require_ok] at h
  rcases h.2 with h | h
  · exact absurd hs h
  · exact h

section
variable {E : Env} {L L' : Ledger} {accts : List Key}

theorem exec_close (h : execute E L accts .close = .ok L') :
    ∃ b r rest, accts = b :: r :: rest ∧ processClose E L b r = .ok L' := by
  have hd := (execute_ok h).2.2.1
  rcases accts with _ | ⟨a, _ | ⟨b, rest⟩⟩ <;> simp [dispatch] at hd
  exact ⟨_, _, _, rfl, hd⟩

theorem exec_burn (h : execute E L accts .burn = .ok L') :
    ∃ a s r g rest, accts = a :: s :: r :: g :: rest ∧
      processBurn E L a s (optAcc E r) (optAcc E g) = .ok L' := by
  have hd := (execute_ok h).2.2.1
  rcases accts with _ | ⟨a, _ | ⟨b, _ | ⟨c, _ | ⟨d, rest⟩⟩⟩⟩ <;> simp [dispatch] at hd
  exact ⟨_, _, _, _, _, rfl, hd⟩

theorem exec_create {x : CreateInput} (h : execute E L accts (.create x) = .ok L') :
    ∃ a au o g ga p s rest, accts = a :: au :: o :: g :: ga :: p :: s :: rest ∧
      processCreate E L a au o (optAcc E g) (optAcc E ga) (optAcc E p) (optAcc E s) x = .ok L' := by
  have hd := (execute_ok h).2.2.1
  rcases accts with _ | ⟨a, _ | ⟨b, _ | ⟨c, _ | ⟨d, _ | ⟨e, _ | ⟨f, _ | ⟨g, rest⟩⟩⟩⟩⟩⟩⟩ <;>
    simp [dispatch] at hd
  exact ⟨_, _, _, _, _, _, _, _, rfl, hd⟩

theorem exec_approve {x : DelegateInput} (h : execute E L accts (.approve x) = .ok L') :
    ∃ a o d rest, accts = a :: o :: d :: rest ∧ processApprove E L a o d x = .ok L' := by
  have hd := (execute_ok h).2.2.1
  rcases accts with _ | ⟨a, _ | ⟨b, _ | ⟨c, rest⟩⟩⟩ <;> simp [dispatch] at hd
  exact ⟨_, _, _, _, rfl, hd⟩

theorem exec_allocate {x : ExtInput} (h : execute E L accts (.allocate x) = .ok L') :
    ∃ a p s rest, accts = a :: p :: s :: rest ∧
      processAllocate E L a (optAcc E p) (optAcc E s) x = .ok L' := by
  have hd := (execute_ok h).2.2.1
  rcases accts with _ | ⟨a, _ | ⟨b, _ | ⟨c, rest⟩⟩⟩ <;> simp [dispatch] at hd
  exact ⟨_, _, _, _, rfl, hd⟩

theorem exec_lock (h : execute E L accts .lock = .ok L') :
    ∃ a s rest, accts = a :: s :: rest ∧ processLock E L a s = .ok L' := by
  have hd := (execute_ok h).2.2.1
  rcases accts with _ | ⟨a, _ | ⟨b, rest⟩⟩ <;> simp [dispatch] at hd
  exact ⟨_, _, _, rfl, hd⟩

theorem exec_revoke {x : DelegateInput} (h : execute E L accts (.revoke x) = .ok L') :
    ∃ a s rest, accts = a :: s :: rest ∧ processRevoke E L a s x = .ok L' := by
  have hd := (execute_ok h).2.2.1
  rcases accts with _ | ⟨a, _ | ⟨b, rest⟩⟩ <;> simp [dispatch] at hd
  exact ⟨_, _, _, rfl, hd⟩

theorem exec_transfer (h : execute E L accts .transfer = .ok L') :
    ∃ a s r g rest, accts = a :: s :: r :: g :: rest ∧
      processTransfer E L a s r (optAcc E g) = .ok L' := by
  have hd := (execute_ok h).2.2.1
  rcases accts with _ | ⟨a, _ | ⟨b, _ | ⟨c, _ | ⟨d, rest⟩⟩⟩⟩ <;> simp [dispatch] at hd
  exact ⟨_, _, _, _, _, rfl, hd⟩

theorem exec_unlock (h : execute E L accts .unlock = .ok L') :
    ∃ a s rest, accts = a :: s :: rest ∧ processUnlock E L a s = .ok L' := by
  have hd := (execute_ok h).2.2.1
  rcases accts with _ | ⟨a, _ | ⟨b, rest⟩⟩ <;> simp [dispatch] at hd
  exact ⟨_, _, _, rfl, hd⟩

theorem exec_unverify (h : execute E L accts .unverify = .ok L') :
    ∃ a s rest, accts = a :: s :: rest ∧ processUnverify E L a s = .ok L' := by
  have hd := (execute_ok h).2.2.1
  rcases accts with _ | ⟨a, _ | ⟨b, rest⟩⟩ <;> simp [dispatch] at hd
  exact ⟨_, _, _, rfl, hd⟩

theorem exec_update {x : UpdateInput} (h : execute E L accts (.update x) = .ok L') :
    ∃ a au b g p s rest, accts = a :: au :: b :: g :: p :: s :: rest ∧
      processUpdate E L a au (optAcc E b) (optAcc E p) (optAcc E s) x = .ok L' := by
  have hd := (execute_ok h).2.2.1
  rcases accts with _ | ⟨a, _ | ⟨b, _ | ⟨c, _ | ⟨d, _ | ⟨e, _ | ⟨f, rest⟩⟩⟩⟩⟩⟩ <;>
    simp [dispatch] at hd
  exact ⟨_, _, _, _, _, _, _, rfl, hd⟩

theorem exec_verify (h : execute E L accts .verify = .ok L') :
    ∃ a s rest, accts = a :: s :: rest ∧ processVerify E L a s = .ok L' := by
  have hd := (execute_ok h).2.2.1
  rcases accts with _ | ⟨a, _ | ⟨b, rest⟩⟩ <;> simp [dispatch] at hd
  exact ⟨_, _, _, rfl, hd⟩

theorem exec_write {x : WriteInput} (h : execute E L accts (.write x) = .ok L') :
    ∃ a p s rest, accts = a :: p :: s :: rest ∧ processWrite E L a p s x = .ok L' := by
  have hd := (execute_ok h).2.2.1
  rcases accts with _ | ⟨a, _ | ⟨b, _ | ⟨c, rest⟩⟩⟩ <;> simp [dispatch] at hd
  exact ⟨_, _, _, _, rfl, hd⟩

theorem exec_group (h : execute E L accts .group = .ok L') :
    ∃ a g au rest, accts = a :: g :: au :: rest ∧ processGroup E L a g au = .ok L' := by
  have hd := (execute_ok h).2.2.1
  rcases accts with _ | ⟨a, _ | ⟨b, _ | ⟨c, rest⟩⟩⟩ <;> simp [dispatch] at hd
  exact ⟨_, _, _, _, rfl, hd⟩

theorem exec_ungroup (h : execute E L accts .ungroup = .ok L') :
    ∃ a g au rest, accts = a :: g :: au :: rest ∧ processUngroup E L a g au = .ok L' := by
  have hd := (execute_ok h).2.2.1
  rcases accts with _ | ⟨a, _ | ⟨b, _ | ⟨c, rest⟩⟩⟩ <;> simp [dispatch] at hd
  exact ⟨_, _, _, _, rfl, hd⟩

theorem exec_handover (h : execute E L accts .handover = .ok L') :
    ∃ a au na rest, accts = a :: au :: na :: rest ∧ processHandover E L a au na = .ok L' := by
  have hd := (execute_ok h).2.2.1
  rcases accts with _ | ⟨a, _ | ⟨b, _ | ⟨c, rest⟩⟩⟩ <;> simp [dispatch] at hd
  exact ⟨_, _, _, _, rfl, hd⟩

theorem exec_remove {t : ExtType} (h : execute E L accts (.remove t) = .ok L') :
    ∃ a au g r rest, accts = a :: au :: g :: r :: rest ∧ processRemove E L a au r t = .ok L' := by
  have hd := (execute_ok h).2.2.1
  rcases accts with _ | ⟨a, _ | ⟨b, _ | ⟨c, _ | ⟨d, rest⟩⟩⟩⟩ <;> simp [dispatch] at hd
  exact ⟨_, _, _, _, _, rfl, hd⟩

theorem exec_resize {s : Strategy} (h : execute E L accts (.resize s) = .ok L') :
    ∃ a au p y rest, accts = a :: au :: p :: y :: rest ∧
      processResize E L a au p (optAcc E y) s = .ok L' := by
  have hd := (execute_ok h).2.2.1
  rcases accts with _ | ⟨a, _ | ⟨b, _ | ⟨c, _ | ⟨d, rest⟩⟩⟩⟩ <;> simp [dispatch] at hd
  exact ⟨_, _, _, _, _, rfl, hd⟩

theorem disp_close (h : dispatch E L .close accts = .ok L') :
    ∃ b r rest, accts = b :: r :: rest ∧ processClose E L b r = .ok L' := by
  rcases accts with _ | ⟨a, _ | ⟨b, rest⟩⟩ <;> simp [dispatch] at h
  exact ⟨_, _, _, rfl, h⟩

theorem disp_burn (h : dispatch E L .burn accts = .ok L') :
    ∃ a s r g rest, accts = a :: s :: r :: g :: rest ∧
      processBurn E L a s (optAcc E r) (optAcc E g) = .ok L' := by
  rcases accts with _ | ⟨a, _ | ⟨b, _ | ⟨c, _ | ⟨d, rest⟩⟩⟩⟩ <;> simp [dispatch] at h
  exact ⟨_, _, _, _, _, rfl, h⟩

theorem disp_create {x : CreateInput} (h : dispatch E L (.create x) accts = .ok L') :
    ∃ a au o g ga p s rest, accts = a :: au :: o :: g :: ga :: p :: s :: rest ∧
      processCreate E L a au o (optAcc E g) (optAcc E ga) (optAcc E p) (optAcc E s) x = .ok L' := by
  rcases accts with _ | ⟨a, _ | ⟨b, _ | ⟨c, _ | ⟨d, _ | ⟨e, _ | ⟨f, _ | ⟨g, rest⟩⟩⟩⟩⟩⟩⟩ <;>
    simp [dispatch] at h
  exact ⟨_, _, _, _, _, _, _, _, rfl, h⟩

theorem disp_approve {x : DelegateInput} (h : dispatch E L (.approve x) accts = .ok L') :
    ∃ a o d rest, accts = a :: o :: d :: rest ∧ processApprove E L a o d x = .ok L' := by
  rcases accts with _ | ⟨a, _ | ⟨b, _ | ⟨c, rest⟩⟩⟩ <;> simp [dispatch] at h
  exact ⟨_, _, _, _, rfl, h⟩

theorem disp_allocate {x : ExtInput} (h : dispatch E L (.allocate x) accts = .ok L') :
    ∃ a p s rest, accts = a :: p :: s :: rest ∧
      processAllocate E L a (optAcc E p) (optAcc E s) x = .ok L' := by
  rcases accts with _ | ⟨a, _ | ⟨b, _ | ⟨c, rest⟩⟩⟩ <;> simp [dispatch] at h
  exact ⟨_, _, _, _, rfl, h⟩

theorem disp_lock (h : dispatch E L .lock accts = .ok L') :
    ∃ a s rest, accts = a :: s :: rest ∧ processLock E L a s = .ok L' := by
  rcases accts with _ | ⟨a, _ | ⟨b, rest⟩⟩ <;> simp [dispatch] at h
  exact ⟨_, _, _, rfl, h⟩

theorem disp_revoke {x : DelegateInput} (h : dispatch E L (.revoke x) accts = .ok L') :
    ∃ a s rest, accts = a :: s :: rest ∧ processRevoke E L a s x = .ok L' := by
  rcases accts with _ | ⟨a, _ | ⟨b, rest⟩⟩ <;> simp [dispatch] at h
  exact ⟨_, _, _, rfl, h⟩

theorem disp_transfer (h : dispatch E L .transfer accts = .ok L') :
    ∃ a s r g rest, accts = a :: s :: r :: g :: rest ∧
      processTransfer E L a s r (optAcc E g) = .ok L' := by
  rcases accts with _ | ⟨a, _ | ⟨b, _ | ⟨c, _ | ⟨d, rest⟩⟩⟩⟩ <;> simp [dispatch] at h
  exact ⟨_, _, _, _, _, rfl, h⟩

theorem disp_unlock (h : dispatch E L .unlock accts = .ok L') :
    ∃ a s rest, accts = a :: s :: rest ∧ processUnlock E L a s = .ok L' := by
  rcases accts with _ | ⟨a, _ | ⟨b, rest⟩⟩ <;> simp [dispatch] at h
  exact ⟨_, _, _, rfl, h⟩

theorem disp_unverify (h : dispatch E L .unverify accts = .ok L') :
    ∃ a s rest, accts = a :: s :: rest ∧ processUnverify E L a s = .ok L' := by
  rcases accts with _ | ⟨a, _ | ⟨b, rest⟩⟩ <;> simp [dispatch] at h
  exact ⟨_, _, _, rfl, h⟩

theorem disp_update {x : UpdateInput} (h : dispatch E L (.update x) accts = .ok L') :
    ∃ a au b g p s rest, accts = a :: au :: b :: g :: p :: s :: rest ∧
      processUpdate E L a au (optAcc E b) (optAcc E p) (optAcc E s) x = .ok L' := by
  rcases accts with _ | ⟨a, _ | ⟨b, _ | ⟨c, _ | ⟨d, _ | ⟨e, _ | ⟨f, rest⟩⟩⟩⟩⟩⟩ <;>
    simp [dispatch] at h
  exact ⟨_, _, _, _, _, _, _, rfl, h⟩

theorem disp_verify (h : dispatch E L .verify accts = .ok L') :
    ∃ a s rest, accts = a :: s :: rest ∧ processVerify E L a s = .ok L' := by
  rcases accts with _ | ⟨a, _ | ⟨b, rest⟩⟩ <;> simp [dispatch] at h
  exact ⟨_, _, _, rfl, h⟩

theorem disp_write {x : WriteInput} (h : dispatch E L (.write x) accts = .ok L') :
    ∃ a p s rest, accts = a :: p :: s :: rest ∧ processWrite E L a p s x = .ok L' := by
  rcases accts with _ | ⟨a, _ | ⟨b, _ | ⟨c, rest⟩⟩⟩ <;> simp [dispatch] at h
  exact ⟨_, _, _, _, rfl, h⟩

theorem disp_group (h : dispatch E L .group accts = .ok L') :
    ∃ a g au rest, accts = a :: g :: au :: rest ∧ processGroup E L a g au = .ok L' := by
  rcases accts with _ | ⟨a, _ | ⟨b, _ | ⟨c, rest⟩⟩⟩ <;> simp [dispatch] at h
  exact ⟨_, _, _, _, rfl, h⟩

theorem disp_ungroup (h : dispatch E L .ungroup accts = .ok L') :
    ∃ a g au rest, accts = a :: g :: au :: rest ∧ processUngroup E L a g au = .ok L' := by
  rcases accts with _ | ⟨a, _ | ⟨b, _ | ⟨c, rest⟩⟩⟩ <;> simp [dispatch] at h
  exact ⟨_, _, _, _, rfl, h⟩

theorem disp_handover (h : dispatch E L .handover accts = .ok L') :
    ∃ a au na rest, accts = a :: au :: na :: rest ∧ processHandover E L a au na = .ok L' := by
  rcases accts with _ | ⟨a, _ | ⟨b, _ | ⟨c, rest⟩⟩⟩ <;> simp [dispatch] at h
  exact ⟨_, _, _, _, rfl, h⟩

theorem disp_remove {t : ExtType} (h : dispatch E L (.remove t) accts = .ok L') :
    ∃ a au g r rest, accts = a :: au :: g :: r :: rest ∧ processRemove E L a au r t = .ok L' := by
  rcases accts with _ | ⟨a, _ | ⟨b, _ | ⟨c, _ | ⟨d, rest⟩⟩⟩⟩ <;> simp [dispatch] at h
  exact ⟨_, _, _, _, _, rfl, h⟩

theorem disp_resize {s : Strategy} (h : dispatch E L (.resize s) accts = .ok L') :
    ∃ a au p y rest, accts = a :: au :: p :: y :: rest ∧
      processResize E L a au p (optAcc E y) s = .ok L' := by
  rcases accts with _ | ⟨a, _ | ⟨b, _ | ⟨c, _ | ⟨d, rest⟩⟩⟩⟩ <;> simp [dispatch] at h
  exact ⟨_, _, _, _, _, rfl, h⟩

end

/-! ## Delegates -/

theorem isActive_iff (x : Delegate) (r : Role) : x.isActive r = true ↔ HasRole x r := by
  have hz : ∀ u : UInt8, decide (u > 0) = true ↔ u ≠ 0 := by
    intro u
    rw [decide_eq_true_iff]
    exact UInt8.pos_iff_ne_zero
  unfold Delegate.isActive
  cases r <;> simp [Role.mask, HasRole, UInt8.pos_iff_ne_zero]

theorem assertDelegate_two (h m : Option Delegate) (k : Key) (r : Role) :
    assertDelegate [h, m] k r = .ok () ↔
      ∃ x, governing m h = some x ∧ x.address = k ∧ HasRole x r := by
  have key : ∀ (x : Delegate) (res : Except Err Unit),
      assertDelegateStep k r res (some x) = .ok () ↔ x.address = k ∧ HasRole x r := by
    intro x res
    unfold assertDelegateStep
    rw [← isActive_iff]
    by_cases h1 : x.address = k <;> by_cases h2 : x.isActive r = true <;> simp [h1, h2]
  unfold assertDelegate
  simp only [List.foldl_cons, List.foldl_nil]
  cases m with
  | some m => rw [key]; simp [governing]
  | none =>
    have : ∀ res, assertDelegateStep k r res none = res := fun _ => rfl
    rw [this]
    cases h with
    | some h => rw [key]; simp [governing]
    | none => simp [assertDelegateStep, governing]

theorem assertDelegate_one (m : Option Delegate) (k : Key) (r : Role) :
    assertDelegate [m] k r = .ok () ↔ ∃ x, m = some x ∧ x.address = k ∧ HasRole x r := by
  have := assertDelegate_two none m k r
  have e : assertDelegate [none, m] k r = assertDelegate [m] k r := rfl
  rw [← e, this]
  cases m <;> simp [governing]

theorem hDelegateValue_eq (d : Bytes) : hDelegateValue d = holderDelegate (view d) := rfl

theorem ownerOrDelegate_true {d : Bytes} {k : Key} {r : Role}
    (h : ownerOrDelegate d k r = .ok true) : (view d).owner = k ∨ IsDelegate d k r := by
  unfold ownerOrDelegate at h
  split at h
  · rename_i ho; exact Or.inl ho
  · right
    simp only [bind_ok] at h
    obtain ⟨m, hm, h⟩ := h
    split at h
    · rename_i u hok
      rw [assertDelegate_two] at hok
      obtain ⟨x, h1, h2, h3⟩ := hok
      exact ⟨m, x, managerOf_has hm, h1, h2, h3⟩
    · simp [pure, Except.pure] at h

end Verif
