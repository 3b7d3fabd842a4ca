import Verif.Lemmas.Refine

/-!
# Every instruction is a move of the state machine, on every asset
-/

namespace Verif

open Verif.Spec

section
variable {E : Env} {L L' : Ledger} {accts : List Key} {k : Key} {A : Asset}

/-- The asset after an instruction. -/
def Moves (E : Env) (L' : Ledger) (accts : List Key) (k : Key) (i : Instr) (A : Asset) : Prop :=
  ∃ A', Stores E.program L' k A' ∧ Move E accts k i A A'

theorem Spec.Stores.owner_eq (h : Stores E.program L k A) : hOwner (L k).data = A.owner := by
  rw [h.2.2.1]; rfl
theorem Spec.Stores.group_eq (h : Stores E.program L k A) : hGroup (L k).data = A.group := by
  rw [h.2.2.1]; rfl
theorem Spec.Stores.authority_eq (h : Stores E.program L k A) :
    hAuthority (L k).data = A.authority := by
  rw [h.2.2.1]; rfl
theorem Spec.Stores.delegate_eq (h : Stores E.program L k A) :
    hDelegate (L k).data = A.delegate := by
  rw [h.2.2.1]; rfl
theorem Spec.Stores.roles_eq (h : Stores E.program L k A) : hRoles (L k).data = A.roles := by
  rw [h.2.2.1]; rfl
theorem Spec.Stores.state_eq (h : Stores E.program L k A) : hState (L k).data = A.state := by
  rw [h.2.2.1]; rfl
theorem Spec.Stores.standard_eq (h : Stores E.program L k A) :
    hStandard (L k).data = A.standard := by
  rw [h.2.2.1]; rfl
theorem Spec.Stores.mutable_eq (h : Stores E.program L k A)
    (hm : hMutable (L k).data = true) : A.mutableByte ≠ 0 := by
  rw [h.2.2.1]
  unfold hMutable at hm
  have : byteAt (L k).data 3 ≠ 0 := by simpa using hm
  exact this

theorem Spec.Stores.unlocked (h : Stores E.program L k A) {i : Instr}
    (hx : execute E L accts i = .ok L') (hb : i.blockedByLock = true) (hk : k ∈ accts.take 7) :
    A.state ≠ 1 := by
  rw [← h.state_eq]
  exact not_locked hx hb hk h.1.1 h.init

theorem stores_setDelegate (hs : Stores E.program L k A) (d : Key) (r : UInt8) :
    Stores E.program (L.setData k (setDelegate (L k).data d r)) k
      { A with delegate := d, roles := r } := by
  have hl := hs.1.2.1
  have := hs.set (length_setDelegate hl d r) (view_setDelegate hl d r) hs.1.2.2 rfl
  rw [hs.2.2.1]; exact this

theorem stores_setRoles (hs : Stores E.program L k A) (r : UInt8) :
    Stores E.program (L.setData k (setRoles (L k).data r)) k { A with roles := r } := by
  have hl := hs.1.2.1
  have := hs.set (length_setRoles hl r) (view_setRoles hl r) hs.1.2.2 rfl
  rw [hs.2.2.1]; exact this

theorem stores_setState (hs : Stores E.program L k A) (r : UInt8) :
    Stores E.program (L.setData k (setState (L k).data r)) k { A with state := r } := by
  have hl := hs.1.2.1
  have := hs.set (length_setState hl r) (view_setState hl r) hs.1.2.2 rfl
  rw [hs.2.2.1]; exact this

theorem stores_setGroup (hs : Stores E.program L k A) (r : Key) :
    Stores E.program (L.setData k (setGroup (L k).data r)) k { A with group := r } := by
  have hl := hs.1.2.1
  have := hs.set (length_setGroup hl r) (view_setGroup hl r) hs.1.2.2 rfl
  rw [hs.2.2.1]; exact this

theorem stores_setAuthority (hs : Stores E.program L k A) (r : Key) :
    Stores E.program (L.setData k (setAuthority (L k).data r)) k { A with authority := r } := by
  have hl := hs.1.2.1
  have := hs.set (length_setAuthority hl r) (view_setAuthority hl r) hs.1.2.2 rfl
  rw [hs.2.2.1]; exact this

theorem stores_transfer (hs : Stores E.program L k A) (r : Key) :
    Stores E.program (L.setData k (setDelegate (setOwner (L k).data r) Key.default 0)) k
      { A with owner := r, delegate := Key.default, roles := 0 } := by
  have hl := hs.1.2.1
  have hl' : 168 ≤ (setOwner (L k).data r).length := by rw [length_setOwner hl]; exact hl
  have hv : view (setDelegate (setOwner (L k).data r) Key.default 0) =
      { view (L k).data with owner := r, delegate := Key.default, roles := 0 } := by
    rw [view_setDelegate hl', view_setOwner hl]
  have := hs.set (by rw [length_setDelegate hl', length_setOwner hl]) hv hs.1.2.2 rfl
  rw [hs.2.2.1]; exact this

theorem head_mem_dataKeys {i : Instr} (h : accts.head? = some k) : k ∈ dataKeys i accts := by
  cases accts with
  | nil => cases h
  | cons a as =>
    obtain rfl : a = k := by simpa using h
    unfold dataKeys
    rw [List.mem_filterMap]
    exact ⟨0, by cases i <;> simp [Instr.dataPositions], rfl⟩

theorem idle_other {i : Instr} (hk : k ∉ dataKeys i accts) : Idle accts k A i := by
  have h0 : accts.head? ≠ some k := fun h => hk (head_mem_dataKeys h)
  have h1 : i = .group ∨ i = .ungroup → accts[1]? ≠ some k := by
    intro hi h
    apply hk
    unfold dataKeys
    rw [List.mem_filterMap]
    exact ⟨1, by rcases hi with rfl | rfl <;> simp [Instr.dataPositions], h⟩
  cases i with
  | group => exact ⟨h0, h1 (Or.inl rfl)⟩
  | ungroup => exact ⟨h0, h1 (Or.inr rfl)⟩
  | resize => trivial
  | transfer => exact fun h => absurd h h0
  | revoke x =>
    cases x with
    | all => exact h0
    | some => exact fun h => absurd h h0
  | _ => exact h0

/-- The accounts whose data is not touched. -/
theorem moves_other {i : Instr} (hs : Stores E.program L k A)
    (h : execute E L accts i = .ok L') (hk : k ∉ dataKeys i accts) : Moves E L' accts k i A := by
  obtain ⟨_, _, _, he⟩ := execute_effect h
  obtain ⟨h1, h2⟩ := he.data k hk
  exact ⟨A, hs.congr h2 h1, .stay i A (idle_other hk)⟩

theorem moves_transfer {s r g : Key} {rest : List Key} (hs : Stores E.program L k A)
    (h : execute E L (k :: s :: r :: g :: rest) .transfer = .ok L')
    (hp : processTransfer E L k s r (optAcc E g) = .ok L') :
    Moves E L' (k :: s :: r :: g :: rest) k .transfer A := by
  unfold processTransfer at hp
  inv at hp
  obtain ⟨_, hsig, _, rc, _, hst, al, hal, ha, hp⟩ := hp
  split at hp
  · rename_i ho
    obtain rfl := pure_ok.mp hp
    rw [hs.owner_eq] at ho
    exact ⟨A, hs, .stay _ _ fun _ => by rw [ho]; rfl⟩
  · inv at hp
    obtain ⟨_, rfl⟩ := hp
    refine ⟨_, stores_transfer hs r, .transfer A s r (g :: rest) rfl hsig ?_ ?_ ?_⟩
    · subst ha
      rcases ownerOrDelegate_true hal with h | h
      · left; rw [← h]; exact hs.owner_eq.symm
      · right; exact hs.delegated h
    · exact hs.unlocked h rfl (by simp)
    · rw [← hs.standard_eq]; exact hst

theorem moves_approve {o d : Key} {rest : List Key} {x : DelegateInput}
    (hs : Stores E.program L k A) (h : execute E L (k :: o :: d :: rest) (.approve x) = .ok L')
    (hp : processApprove E L k o d x = .ok L') :
    Moves E L' (k :: o :: d :: rest) k (.approve x) A := by
  unfold processApprove at hp
  inv at hp
  obtain ⟨_, _, ho, hsig, hp⟩ := hp
  rw [hs.owner_eq] at ho
  split at hp
  · rename_i hc
    obtain rfl := pure_ok.mp hp
    have e : A.delegate = d := by rw [← hs.delegate_eq]; exact hc.2
    refine ⟨_, stores_setRoles hs _, ?_⟩
    have := Move.approve (E := E) (k := k) A x o d (hRoles (L k).data ||| x.approveMask) rest rfl
      hsig ho (hs.unlocked h rfl (by simp))
    subst e
    exact this
  · obtain rfl := pure_ok.mp hp
    exact ⟨_, stores_setDelegate hs _ _, .approve A x o d _ rest rfl hsig ho
      (hs.unlocked h rfl (by simp))⟩

theorem moves_revoke {s : Key} {rest : List Key} {x : DelegateInput}
    (hs : Stores E.program L k A) (h : execute E L (k :: s :: rest) (.revoke x) = .ok L')
    (hp : processRevoke E L k s x = .ok L') :
    Moves E L' (k :: s :: rest) k (.revoke x) A := by
  unfold processRevoke at hp
  inv at hp
  obtain ⟨hsig, _, _, ho, hp⟩ := hp
  rw [hs.owner_eq, hs.delegate_eq] at ho
  have hu := hs.unlocked h rfl (by simp)
  have hall : Moves E (L.setData k (setDelegate (L k).data Key.default 0)) (k :: s :: rest) k
      (.revoke x) A :=
    ⟨_, stores_setDelegate hs _ _, .revoke A x s _ _ rest rfl hsig ho hu (Or.inr ⟨rfl, rfl⟩)⟩
  cases x with
  | all => obtain rfl := pure_ok.mp hp; exact hall
  | some rs =>
    simp only at hp
    split at hp
    · split at hp
      · obtain rfl := pure_ok.mp hp; exact hall
      · obtain rfl := pure_ok.mp hp
        exact ⟨_, stores_setRoles hs _, .revoke A _ s A.delegate _ rest rfl hsig ho hu (Or.inl rfl)⟩
    · rename_i hd
      obtain rfl := pure_ok.mp hp
      rw [hs.delegate_eq] at hd
      exact ⟨A, hs, .stay _ _ fun _ => not_not.mp hd⟩

theorem moves_lock {s : Key} {rest : List Key} (hs : Stores E.program L k A)
    (h : execute E L (k :: s :: rest) .lock = .ok L') (hp : processLock E L k s = .ok L') :
    Moves E L' (k :: s :: rest) k .lock A := by
  unfold processLock at hp
  inv at hp
  obtain ⟨hsig, _, _, ha, rfl⟩ := hp
  exact ⟨_, stores_setState hs _, .lock A s rest rfl hsig (hs.mayLock ha)
    (hs.unlocked h rfl (by simp))⟩

theorem moves_unlock {s : Key} {rest : List Key} (hs : Stores E.program L k A)
    (hp : processUnlock E L k s = .ok L') : Moves E L' (k :: s :: rest) k .unlock A := by
  unfold processUnlock at hp
  inv at hp
  obtain ⟨hsig, _, _, ha, rfl⟩ := hp
  exact ⟨_, stores_setState hs _, .unlock A s rest rfl hsig (hs.mayLock ha)⟩

theorem moves_handover {s n : Key} {rest : List Key} (hs : Stores E.program L k A)
    (hp : processHandover E L k s n = .ok L') :
    Moves E L' (k :: s :: n :: rest) k .handover A := by
  unfold processHandover at hp
  inv at hp
  obtain ⟨hsig, hn, _, _, ha, hm, rfl⟩ := hp
  exact ⟨_, stores_setAuthority hs _, .handover A s n rest rfl hsig hn
    (by rw [← hs.authority_eq]; exact ha) (hs.mutable_eq hm)⟩

theorem setVerified_stores {c : Key} {v : Bool} (hs : Stores E.program L k A)
    (hp : processSetVerified E L k c v = .ok L') :
    E.signer c = true ∧ ∃ p q, lookup .creators A.exts = some p ∧ SetsFlags c (podBool v) p q ∧
      Stores E.program L' k { A with exts := setExt .creators q A.exts } := by
  unfold processSetVerified at hp
  inv at hp
  obtain ⟨hsig, _, _, r, hg, hp⟩ := hp
  cases r with
  | none => cases hp
  | some r =>
    obtain ⟨off, p⟩ := r
    inv at hp
    obtain ⟨cs, hcs, _, rfl⟩ := hp
    rw [readCreators_eq] at hcs
    subst hcs
    have hf := setsFlags_creators c (podBool v) cs
    obtain ⟨g1, g2⟩ := hs.replaceMut (L' := L.setData k (splice (L k).data off _)) (by decide) hg
      hf.2.1 (by rw [Ledger.setData_same]) (by rw [Ledger.setData_same])
    exact ⟨hsig, _, _, g1, hf, g2⟩

/-- The number of members changes. -/
theorem moves_resized {off : Nat} {p : Bytes} {g : Grouping} {n : Nat}
    (hs : Stores E.program L k A) (hg : extGet .grouping ((L k).data.drop 168) = .ok (some (off, p)))
    (hr : readGrouping p = .ok g) (ho : (L' k).owner = (L k).owner)
    (hd : (L' k).data = splice (L k).data (168 + off) (setGroupSize p n)) :
    lookup .grouping A.exts = some p ∧ 16 ≤ p.length ∧
      Stores E.program L' k (A.resized p n) := by
  obtain ⟨g1, g2⟩ := hs.replace (by decide) hg
    (length_setGroupSize n (readGrouping_ok hr).1) ho hd
  rw [setGroupSize_eq] at g2
  exact ⟨g1, (readGrouping_ok hr).1, g2⟩

theorem group_group {a g au : Key} (hp : processGroup E L a g au = .ok L')
    (hs : Stores E.program L g A) :
    g ≠ a ∧ ∃ p, lookup .grouping A.exts = some p ∧ 16 ≤ p.length ∧
      (limitOf p = 0 ∨ membersOf p < limitOf p) ∧
      Stores E.program L' g (A.resized p (more (membersOf p))) := by
  unfold processGroup at hp
  inv at hp
  obtain ⟨hsig, _, _, _, hne, _, _, _, r, hg, hp⟩ := hp
  cases r with
  | none => cases hp
  | some r =>
    obtain ⟨off, p⟩ := r
    inv at hp
    obtain ⟨gr, hr, _, hlim, rfl⟩ := hp
    rw [limit_eq hr, members_eq hr] at hlim
    rw [members_eq hr]
    obtain ⟨g1, g2⟩ := moves_resized (L' := (L.setData a (setGroup (L a).data g)).setData g
      (splice (L g).data (assetLen + off) (setGroupSize p (more (membersOf p)))))
      (n := more (membersOf p)) hs hg hr
      (by rw [Ledger.setData_same]; simp only; rw [Ledger.setData_other _ _ hne])
      (by rw [Ledger.setData_same]; rfl)
    exact ⟨hne, p, g1, g2.1, hlim, g2.2⟩

theorem group_asset {a g au : Key} (hp : processGroup E L a g au = .ok L')
    (hs : Stores E.program L a A) :
    E.signer au = true ∧ A.group = Key.default ∧
      Stores E.program L' a { A with group := g } := by
  unfold processGroup at hp
  inv at hp
  obtain ⟨hsig, _, _, _, hne, _, hgr, _, r, hg, hp⟩ := hp
  cases r with
  | none => cases hp
  | some r =>
    obtain ⟨off, p⟩ := r
    inv at hp
    obtain ⟨gr, hr, _, _, rfl⟩ := hp
    refine ⟨hsig, by rw [← hs.group_eq]; exact hgr, (stores_setGroup hs g).congr ?_ ?_⟩ <;>
      rw [Ledger.setData_other _ _ (Ne.symm hne)]

theorem ungroup_group {a g au : Key} (hp : processUngroup E L a g au = .ok L')
    (hs : Stores E.program L g A) :
    g ≠ a ∧ ∃ p, lookup .grouping A.exts = some p ∧ 16 ≤ p.length ∧
      Stores E.program L' g
        (A.resized p (fewer (membersOf p))) := by
  unfold processUngroup at hp
  inv at hp
  obtain ⟨hsig, _, _, _, hne, _, _, r, hg, hp⟩ := hp
  cases r with
  | none => cases hp
  | some r =>
    obtain ⟨off, p⟩ := r
    inv at hp
    obtain ⟨gr, hr, _, rfl⟩ := hp
    have hlt : membersOf p < 18446744073709551616 := by
      unfold membersOf
      have := leNat_lt (p.take 8)
      have hl : (p.take 8).length = 8 := by
        have := (readGrouping_ok hr).1
        rw [List.length_take]; omega
      rw [hl] at this
      simpa using this
    have hn : (gr.size + two64 - 1) % two64 =
        fewer (membersOf p) := by
      rw [members_eq hr]
      unfold fewer
      simp only [show two64 = 18446744073709551616 from rfl]
      split <;> omega
    rw [hn]
    obtain ⟨g1, g2⟩ := moves_resized (L' := (L.setData a (setGroup (L a).data Key.default)).setData g
      (splice (L g).data (assetLen + off) (setGroupSize p (fewer (membersOf p)))))
      (n := fewer (membersOf p)) hs hg hr
      (by rw [Ledger.setData_same]; simp only; rw [Ledger.setData_other _ _ hne])
      (by rw [Ledger.setData_same]; rfl)
    exact ⟨hne, p, g1, g2.1, g2.2⟩

theorem ungroup_asset {a g au : Key} (hp : processUngroup E L a g au = .ok L')
    (hs : Stores E.program L a A) :
    E.signer au = true ∧ A.group = g ∧
      Stores E.program L' a { A with group := Key.default } := by
  unfold processUngroup at hp
  inv at hp
  obtain ⟨hsig, _, _, _, hne, _, hgr, r, hg, hp⟩ := hp
  cases r with
  | none => cases hp
  | some r =>
    obtain ⟨off, p⟩ := r
    inv at hp
    obtain ⟨gr, hr, _, rfl⟩ := hp
    refine ⟨hsig, by rw [← hs.group_eq]; exact hgr, (stores_setGroup hs _).congr ?_ ?_⟩ <;>
      rw [Ledger.setData_other _ _ (Ne.symm hne)]

theorem close_self {r : Key} (h : closeAccount L k r = .ok L') : Gone L' k := by
  unfold closeAccount at h
  split at h
  · cases h
  · split at h
    · cases h
    · cases h
      exact Ledger.set_same _ _ _

theorem close_other {r a : Key} (E : Env) (h : closeAccount L a r = .ok L') (hk : k ≠ a) :
    (L' k).data = (L k).data ∧ (L' k).owner = (L k).owner := by
  have := (Effect.close (E := E) (K := [a]) (P := [r]) h (by simp) (by simp)).data k (by simp [hk])
  exact this

theorem burn_inv {a s : Key} {r g : Option Key} (hp : processBurn E L a s r g = .ok L') :
    ∃ L1, burnGroup L a g (L a).data = .ok L1 ∧ closeAccount L1 a (r.getD s) = .ok L' := by
  unfold processBurn at hp
  inv at hp
  obtain ⟨_, _, _, _, _, _, L1, hb, res, _, h⟩ := hp
  cases res with
  | none => exact ⟨L1, hb, h⟩
  | some p =>
    inv at h
    obtain ⟨_, _, _, h⟩ := h
    exact ⟨L1, hb, h⟩

theorem burn_group {a s g : Key} {r : Option Key} (hp : processBurn E L a s r (some g) = .ok L')
    (hs : Stores E.program L g A) (hne : g ≠ a) :
    Stores E.program L' g A ∨ ∃ p, lookup .grouping A.exts = some p ∧ 16 ≤ p.length ∧ membersOf p ≠ 0 ∧
      Stores E.program L' g (A.resized p (membersOf p - 1)) := by
  obtain ⟨L1, hb, hc⟩ := burn_inv hp
  obtain ⟨c1, c2⟩ := close_other E hc hne
  unfold burnGroup at hb
  split at hb
  · cases hb
    exact Or.inl (hs.congr c2 c1)
  · simp only at hb
    inv at hb
    obtain ⟨_, _, x, hg, hb⟩ := hb
    cases x with
    | none => cases hb
    | some x =>
      obtain ⟨off, p⟩ := x
      inv at hb
      obtain ⟨gr, hr, hz, rfl⟩ := hb
      rw [members_eq hr] at hz c1
      rw [Ledger.setData_same] at c1 c2
      obtain ⟨g1, g2⟩ := hs.replaceMut (L' := L') (q := setGroupSize p (membersOf p - 1))
        (by decide) hg (length_setGroupSize _ (readGrouping_ok hr).1) c2 c1
      rw [setGroupSize_eq] at g2
      exact Or.inr ⟨p, g1, (readGrouping_ok hr).1, hz, g2⟩

theorem not_uninit (hs : Stores E.program L k A) (h : hDisc (L k).data = 0) : False := by
  have := hs.1.2.2
  unfold assetAt view at this
  simp only at this
  unfold hDisc at h
  rw [h] at this
  exact absurd this (by decide)

theorem not_system (hs : Stores E.program L k A) (h : (L k).data = []) : False := by
  have := hs.1.2.1
  rw [h] at this
  simp at this

/-- The update from a buffer in terms of the extension header and data in the buffer. -/
theorem takesFrom {au : Key} {t : ExtType} {old : Option Bytes} {b v : Bytes} {hd : Hdr}
    (ht : t ≠ .none) (hty : ExtType.ofU32 hd.ty = some t) (hhd : hd = hdrAt b 168)
    (hl : 184 + hd.len ≤ b.length)
    (hv : updateValidate t (slice b 168 hd.len) old au = .ok v) :
    TakesFrom au t old (slice (splice b 168 v) 184 hd.len) := by
  obtain ⟨a1, a3, a4, a2⟩ := (updateValidate_iff ht).mp hv
  have hvl := (updateValidate_books hv).1
  rw [length_slice (by omega)] at hvl
  have hraw : slice b 168 16 ++ slice b 184 hd.len = slice b 168 (16 + hd.len) := by
    unfold slice
    rw [List.take_add, List.drop_drop]
  have h1 : (slice b 168 16).length = 16 := length_slice (by omega)
  have h2 : (slice b 184 hd.len).length = hd.len := length_slice (by omega)
  refine ⟨slice b 168 16, slice b 184 hd.len, v, h1, ?_, ?_, ?_, ?_, a2, ?_, a4⟩
  · have : (slice b 168 16).take 4 = slice b 168 4 := by unfold slice; rw [List.take_take]; rfl
    rw [this]
    have : leNat (slice b 168 4) = hd.ty := by rw [hhd]; rfl
    rw [this]
    exact toU32_ofU32 hty
  · have : slice (slice b 168 16) 4 4 = slice b 172 4 := by
      unfold slice
      rw [List.drop_take, List.drop_drop, List.take_take]; rfl
    rw [this, h2]
    have : leNat (slice b 172 4) = hd.len := by rw [hhd]; rfl
    exact this
  · rw [h2, hraw]
    have : (slice b 168 (16 + hd.len)).take hd.len = slice b 168 hd.len := by
      unfold slice; rw [List.take_take, Nat.min_eq_left (by omega)]
    rw [this]; exact a1
  · rw [h2, hraw]
    apply List.ext_getElem?
    intro i
    rw [getElem?_slice, List.getElem?_drop, List.getElem?_append, hvl]
    by_cases hi : i < hd.len
    · rw [if_pos hi, getElem?_splice (by omega), hvl, if_neg (by omega)]
      by_cases h3 : 16 + i < hd.len
      · rw [if_pos (by omega), if_pos h3,
          show 184 + i - 168 = 16 + i by omega]
      · rw [if_neg (by omega), if_neg h3, List.getElem?_drop, getElem?_slice, if_pos (by omega),
          show 168 + (hd.len + (16 + i - hd.len)) = 184 + i by omega]
    · rw [if_neg hi, if_neg (by omega), List.getElem?_drop, getElem?_slice, if_neg (by omega)]
  · rw [h2, hraw]
    have : (slice b 168 (16 + hd.len)).take hd.len = slice b 168 hd.len := by
      unfold slice; rw [List.take_take, Nat.min_eq_left (by omega)]
    rw [this]; exact a3

theorem moves_update {au b g p s : Key} {rest : List Key} {x : UpdateInput}
    (hs : Stores E.program L k A)
    (h : execute E L (k :: au :: b :: g :: p :: s :: rest) (.update x) = .ok L')
    (hsafe : ∀ e, x.extension = some e → e.ty ≠ .none)
    (hp : processUpdate E L k au (optAcc E b) (optAcc E p) (optAcc E s) x = .ok L') :
    Moves E L' (k :: au :: b :: g :: p :: s :: rest) k (.update x) A := by
  have hmax := execute_maxLen h (k := k) (by simp) hs.2.1
  unfold processUpdate at hp
  inv at hp
  obtain ⟨hsig, ho, hi, ha, hm, hp⟩ := hp
  rw [hs.authority_eq] at ha
  have hm' := hs.mutable_eq hm
  have hs1 := stores_updateHeader hs x
  cases hx : x.extension with
  | none =>
    rw [hx] at hp
    cases hb : optAcc E b with
    | none =>
      rw [hb] at hp
      obtain rfl := pure_ok.mp hp
      exact ⟨_, hs1, .retitle A x au _ rfl hsig ha hm' hx⟩
    | some b' =>
      rw [hb] at hp
      simp only at hp
      have hbb : b' = b ∧ b ≠ E.program := by
        unfold optAcc at hb
        split at hb
        · cases hb
        · cases hb; exact ⟨rfl, by assumption⟩
      obtain ⟨rfl, hbp⟩ := hbb
      obtain ⟨hd, off, t, v, g1, g2, g4, g3⟩ := updateBuffer_stores hs1 hmax hp
      have hhd : hd = hdrAt ((L.setData k (updateHeader (L k).data x)) b').data 168 := by
        unfold firstExtension at g1
        split at g1
        · simp only at g1
          split at g1
          · cases g1
          · cases g1; rfl
          · cases g1
        · cases g1
      have ht : t ≠ .none := by
        rintro rfl
        unfold firstExtension at g1
        split at g1
        · simp only at g1
          split at g1
          · cases g1
          · rename_i hne
            cases g1
            rw [hne] at g2
            cases g2
            simp_all
          · cases g1
        · cases g1
      obtain ⟨g3, g5⟩ := g3 ht
      exact ⟨_, g5, .updateFrom A x au b' _ t _ rfl hsig ha hm' hx hbp ht
        (takesFrom ht g2 hhd g4 g3)⟩
  | some e =>
    rw [hx] at hp
    cases hb : optAcc E b with
    | some b' => rw [hb] at hp; cases hp
    | none =>
      rw [hb] at hp
      simp only at hp
      obtain ⟨pl, g1, g2, g3⟩ := updateArgs_stores hs1 (hsafe e hx) hmax hp
      refine ⟨_, g1, .update A x au _ e pl rfl hsig ha hm' hx (hsafe e hx) ?_⟩
      unfold UpdatesTo
      cases hd : e.data with
      | none =>
        rw [hd] at g3
        simp only at g3 ⊢
        subst g3
        refine ⟨rfl, UInt32.toNat_inj.mp ?_⟩
        simpa using g2.symm
      | some data =>
        rw [hd] at g3
        obtain ⟨k1, k3, k4, k2⟩ := (updateValidate_iff (hsafe e hx)).mp g3
        exact ⟨k1, g2, k2, k3, k4⟩

theorem mem_two {i : Instr} {a : Key} {n : Nat} (hi : i.dataPositions = [0, n])
    (hk : k ∈ dataKeys i accts) (h0 : accts[0]? = some a) : k = a ∨ accts[n]? = some k := by
  unfold dataKeys at hk
  rw [hi] at hk
  simp only [List.mem_filterMap, List.mem_cons, List.not_mem_nil, or_false] at hk
  obtain ⟨p, rfl | rfl, hp⟩ := hk
  · rw [h0] at hp; left; cases hp; rfl
  · right; exact hp

theorem mem_one {i : Instr} {a : Key} (hi : i.dataPositions = [0])
    (hk : k ∈ dataKeys i accts) (h0 : accts[0]? = some a) : k = a := by
  unfold dataKeys at hk
  rw [hi] at hk
  simp only [List.mem_filterMap, List.mem_cons, List.not_mem_nil, or_false] at hk
  obtain ⟨p, rfl, hp⟩ := hk
  rw [h0] at hp; cases hp; rfl

theorem remove_protected {au r : Key} {t : ExtType} (hp : processRemove E L k au r t = .ok L') :
    t ≠ .manager ∧ t ≠ .proxy := by
  unfold processRemove at hp
  inv at hp
  obtain ⟨_, _, _, _, _, y, _, hp⟩ := hp
  cases y with
  | none => cases hp
  | some y =>
    inv at hp
    obtain ⟨ha, _⟩ := hp
    constructor <;> (rintro rfl; cases ha)

/-- Every instruction leaves an asset in its account and moves it as described, or burns it. -/
theorem refine {i : Instr} (hs : Stores E.program L k A) (h : execute E L accts i = .ok L')
    (hsafe : Sound k A accts i) :
    (i = .burn ∧ accts.head? = some k ∧ Gone L' k) ∨ Moves E L' accts k i A := by
  by_cases hk : k ∈ dataKeys i accts
  swap
  · exact Or.inr (moves_other hs h hk)
  cases i with
  | close =>
    obtain ⟨b, r, rest, rfl, hp⟩ := exec_close h
    obtain rfl := mem_one rfl hk rfl
    unfold processClose at hp
    inv at hp
    rcases hp.2.2.1 with h | h
    · exact (not_system hs h).elim
    · exact (not_uninit hs h).elim
  | burn =>
    obtain ⟨a, s, r, g, rest, rfl, hp⟩ := exec_burn h
    by_cases hka : k = a
    · subst hka
      obtain ⟨_, _, hc⟩ := burn_inv hp
      exact Or.inl ⟨rfl, rfl, close_self hc⟩
    · right
      rcases mem_two rfl hk rfl with h' | h'
      · exact absurd h' hka
      · simp only [List.getElem?_cons_succ, List.getElem?_cons_zero, Option.some.injEq] at h'
        subst h'
        by_cases hgp : g = E.program
        · have : optAcc E g = none := if_pos hgp
          rw [this] at hp
          obtain ⟨L1, hb, hc⟩ := burn_inv hp
          obtain ⟨c1, c2⟩ := close_other E hc hka
          unfold burnGroup at hb
          split at hb
          · cases hb
            exact ⟨A, hs.congr c2 c1, .stay _ _ (by simpa [Idle] using fun h => hka h.symm)⟩
          · cases hb
        · have : optAcc E g = some g := if_neg hgp
          rw [this] at hp
          rcases burn_group hp hs hka with h1 | ⟨p, h1, h16, h2, h3⟩
          · exact ⟨A, h1, .stay _ _ (by simpa [Idle] using fun h => hka h.symm)⟩
          · refine ⟨_, h3, ?_⟩
            have := Move.memberOut (E := E) (accts := a :: s :: r :: g :: rest) (k := g) A .burn p
              (Or.inr rfl) (by simp) (by simp; exact fun h => hka h.symm) h1 h16
            have e : fewer (membersOf p) = membersOf p - 1 := if_neg h2
            rwa [e] at this
  | create x =>
    obtain ⟨a, au, o, g, ga, p, s, rest, rfl, hp⟩ := exec_create h
    obtain ⟨_, L1, L2, d, types, h1, h2, _, _, _, _, h3⟩ := processCreate_inv hp
    obtain ⟨e1, o1, h1⟩ := createPrepare_eff h1
    obtain ⟨e2, _⟩ := allocateAll_eff h2 o1
    have hka : k ≠ a := by
      rintro rfl
      rcases h1 with h1 | h1
      · exact not_system hs h1.1
      · exact not_uninit hs h1.2.2.1
    have hs2 : Stores E.program (L2.setData a (createHeader d o au x)) k A := by
      obtain ⟨q1, q2⟩ := e1.data k hka
      obtain ⟨q3, q4⟩ := e2.data k hka
      refine hs.congr ?_ ?_ <;> rw [Ledger.setData_other _ _ hka]
      · rw [q4, q2]
      · rw [q3, q1]
    right
    rcases h3 with ⟨_, rfl⟩ | ⟨g', hg', h3⟩
    · exact ⟨A, hs2, .stay _ _ (by simpa [Idle] using fun h => hka h.symm)⟩
    · rcases mem_two rfl hk rfl with h' | h'
      · exact absurd h' hka
      · simp only [List.getElem?_cons_succ, List.getElem?_cons_zero, Option.some.injEq] at h'
        subst h'
        have : g' = g := by
          unfold optAcc at hg'
          split at hg'
          · cases hg'
          · cases hg'; rfl
        subst this
        obtain ⟨_, p', q1, q16, qm, q2⟩ := group_group h3 hs2
        exact ⟨_, q2, .memberIn A _ p' (Or.inr ⟨x, rfl⟩) (by simp)
          (by simp; exact fun h => hka h.symm) q1 q16 qm⟩
  | approve x =>
    obtain ⟨a, o, d, rest, rfl, hp⟩ := exec_approve h
    obtain rfl := mem_one rfl hk rfl
    exact Or.inr (moves_approve hs h hp)
  | allocate x =>
    obtain ⟨a, p, s, rest, rfl, hp⟩ := exec_allocate h
    obtain rfl := mem_one rfl hk rfl
    obtain ⟨_, _, _, h1 | h1⟩ := processAllocate_eff hp
    · exact (not_system hs h1.1).elim
    · exact (not_uninit hs h1.2.2).elim
  | lock =>
    obtain ⟨a, s, rest, rfl, hp⟩ := exec_lock h
    obtain rfl := mem_one rfl hk rfl
    exact Or.inr (moves_lock hs h hp)
  | revoke x =>
    obtain ⟨a, s, rest, rfl, hp⟩ := exec_revoke h
    obtain rfl := mem_one rfl hk rfl
    exact Or.inr (moves_revoke hs h hp)
  | transfer =>
    obtain ⟨a, s, r, g, rest, rfl, hp⟩ := exec_transfer h
    obtain rfl := mem_one rfl hk rfl
    exact Or.inr (moves_transfer hs h hp)
  | unlock =>
    obtain ⟨a, s, rest, rfl, hp⟩ := exec_unlock h
    obtain rfl := mem_one rfl hk rfl
    exact Or.inr (moves_unlock hs hp)
  | unverify =>
    obtain ⟨a, c, rest, rfl, hp⟩ := exec_unverify h
    obtain rfl := mem_one rfl hk rfl
    obtain ⟨h1, p, q, h2, h3, h4⟩ := setVerified_stores hs hp
    exact Or.inr ⟨_, h4, .unverify A c rest p q rfl h1 h2 h3⟩
  | update x =>
    obtain ⟨a, au, b, g, p, s, rest, rfl, hp⟩ := exec_update h
    by_cases hka : k = a
    · subst hka
      exact Or.inr (moves_update hs h (hsafe rfl) hp)
    · rcases mem_two rfl hk rfl with h' | h'
      · exact absurd h' hka
      · simp only [List.getElem?_cons_succ, List.getElem?_cons_zero, Option.some.injEq] at h'
        subst h'
        obtain ⟨⟨L1, h1, h2, h3, e, _⟩, _⟩ := processUpdate_eff hp
        by_cases hb : optAcc E b = some b
        · exact (not_uninit hs (h2 b hb).2.2.2).elim
        · right
          have hb' : optAcc E b ≠ some b := hb
          have q1 := h1 b hka hb'
          obtain ⟨q2, q3⟩ := e.data b hka
          exact ⟨A, hs.congr (by rw [q3, q1]) (by rw [q2, q1]),
            .stay _ _ (by simpa [Idle] using fun h => hka h.symm)⟩
  | verify =>
    obtain ⟨a, c, rest, rfl, hp⟩ := exec_verify h
    obtain rfl := mem_one rfl hk rfl
    obtain ⟨h1, p, q, h2, h3, h4⟩ := setVerified_stores hs hp
    exact Or.inr ⟨_, h4, .verify A c rest p q rfl h1 h2 h3⟩
  | write x =>
    obtain ⟨a, p, s, rest, rfl, hp⟩ := exec_write h
    obtain rfl := mem_one rfl hk rfl
    obtain ⟨_, _, _, _, _, h1⟩ := processWrite_eff hp
    exact (not_uninit hs h1).elim
  | group =>
    obtain ⟨a, g, au, rest, rfl, hp⟩ := exec_group h
    right
    by_cases hka : k = a
    · subst hka
      obtain ⟨h1, h2, h3⟩ := group_asset hp hs
      exact ⟨_, h3, .join A g au rest rfl h1 h2⟩
    · rcases mem_two rfl hk rfl with h' | h'
      · exact absurd h' hka
      · simp only [List.getElem?_cons_succ, List.getElem?_cons_zero, Option.some.injEq] at h'
        subst h'
        obtain ⟨_, p', q1, q16, qm, q2⟩ := group_group hp hs
        exact ⟨_, q2, .memberIn A _ p' (Or.inl rfl) (by simp)
          (by simp; exact fun h => hka h.symm) q1 q16 qm⟩
  | ungroup =>
    obtain ⟨a, g, au, rest, rfl, hp⟩ := exec_ungroup h
    right
    by_cases hka : k = a
    · subst hka
      obtain ⟨h1, h2, h3⟩ := ungroup_asset hp hs
      exact ⟨_, h3, .leave A g au rest rfl h1 h2⟩
    · rcases mem_two rfl hk rfl with h' | h'
      · exact absurd h' hka
      · simp only [List.getElem?_cons_succ, List.getElem?_cons_zero, Option.some.injEq] at h'
        subst h'
        obtain ⟨_, p', q1, q16, q2⟩ := ungroup_group hp hs
        exact ⟨_, q2, .memberOut A _ p' (Or.inl rfl) (by simp)
          (by simp; exact fun h => hka h.symm) q1 q16⟩
  | handover =>
    obtain ⟨a, au, na, rest, rfl, hp⟩ := exec_handover h
    obtain rfl := mem_one rfl hk rfl
    exact Or.inr (moves_handover hs hp)
  | remove t =>
    obtain ⟨a, au, g, r, rest, rfl, hp⟩ := exec_remove h
    obtain rfl := mem_one rfl hk rfl
    have hmax := execute_maxLen h (k := k) (by simp) hs.2.1
    obtain ⟨t1, t2, t3⟩ := hsafe rfl
    obtain ⟨h1, h2, h3, h4⟩ := processRemove_stores hs t1 t2 t3 hmax hp
    exact Or.inr ⟨_, h4, .remove A t au _ rfl h1 h2.symm h3 ⟨t1, remove_protected hp⟩⟩
  | resize x =>
    obtain ⟨a, au, p, y, rest, rfl, hp⟩ := exec_resize h
    obtain rfl := mem_one rfl hk rfl
    have hmax := execute_maxLen h (k := k) (by simp) hs.2.1
    obtain ⟨_, _, _, h4, _⟩ := processResize_stores hs hmax hp
    exact Or.inr ⟨A, h4, .stay _ _ trivial⟩

end

end Verif
