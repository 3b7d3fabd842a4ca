import Verif.Lemmas.Accepts
import Verif.Lemmas.Check
import Verif.Examples

/-!
# C48 — requests of those entitled are accepted

For an account that stores an asset, an instruction succeeds exactly when those who are entitled
to it ask for it, and it then has its effect.
-/

namespace Verif.Props

open Verif Verif.Spec

section
variable {E : Env} {L L' : Ledger} {k s : Key} {A : Asset} {rest : List Key}

theorem calm_all (hs : Stores E.program L k A) (h : A.state ≠ 1)
    (hc : ∀ x ∈ rest, Calm E.program L x) : ∀ x ∈ k :: rest, Calm E.program L x := by
  intro x hx
  rcases List.mem_cons.mp hx with rfl | hx
  · exact calm_stores hs h
  · exact hc x hx

theorem whole_all (hs : Stores E.program L k A)
    (hc : ∀ x ∈ rest, Whole E.program L x) : ∀ x ∈ k :: rest, Whole E.program L x := by
  intro x hx
  rcases List.mem_cons.mp hx with rfl | hx
  · exact whole_stores hs
  · exact hc x hx

/-- Lock. -/
theorem C48_lock (hs : Stores E.program L k A) (hu : Usable E k A) (hm : ManagerReadable A)
    (hc : ∀ x ∈ s :: rest, Calm E.program L x) :
    (∃ L', execute E L (k :: s :: rest) .lock = .ok L' ∧
      Stores E.program L' k { A with state := 1 }) ↔
    E.signer s = true ∧ A.MayLock s ∧ A.state ≠ 1 := by
  constructor
  · rintro ⟨L', h, _⟩
    obtain ⟨a, b, rest', he, hp⟩ := exec_lock h
    cases he
    unfold processLock at hp
    inv at hp
    exact ⟨hp.1, hs.mayLock hp.2.2.2.1, hs.unlocked h rfl (by simp)⟩
  · rintro ⟨h1, h2, h3⟩
    refine ⟨_, accept_calm (L' := L.setData k (setState (L k).data 1)) hs hu rfl
      (calm_all hs h3 hc) ?_ (fun x _ => changed_asset hs hu (stores_setState hs 1) x),
      stores_setState hs 1⟩
    show processLock E L k s = _
    unfold processLock
    inv
    exact ⟨h1, hs.1.1, hs.init, lockAuthority_ok hs hm h2, rfl⟩

/-- Unlock: whatever the other accounts are. -/
theorem C48_unlock (hs : Stores E.program L k A) (hu : Usable E k A) (hm : ManagerReadable A)
    (hc : ∀ x ∈ s :: rest, Whole E.program L x) :
    (∃ L', execute E L (k :: s :: rest) .unlock = .ok L' ∧
      Stores E.program L' k { A with state := 0 }) ↔
    E.signer s = true ∧ A.MayLock s := by
  constructor
  · rintro ⟨L', h, _⟩
    obtain ⟨a, b, rest', he, hp⟩ := exec_unlock h
    cases he
    unfold processUnlock at hp
    inv at hp
    exact ⟨hp.1, hs.mayLock hp.2.2.2.1⟩
  · rintro ⟨h1, h2⟩
    refine ⟨_, accept_whole (L' := L.setData k (setState (L k).data 0)) hs hu rfl
      (whole_all hs hc) rfl ?_ (fun x _ => changed_asset hs hu (stores_setState hs 0) x),
      stores_setState hs 0⟩
    show processUnlock E L k s = _
    unfold processUnlock
    inv
    exact ⟨h1, hs.1.1, hs.init, lockAuthority_ok hs hm h2, rfl⟩

/-- Approve: the owner, for any delegate and roles. -/
theorem C48_approve {d : Key} {x : DelegateInput} (hs : Stores E.program L k A)
    (hu : Usable E k A) (hc : ∀ y ∈ s :: d :: rest, Calm E.program L y) :
    (∃ L', execute E L (k :: s :: d :: rest) (.approve x) = .ok L' ∧
      Stores E.program L' k { A with
        delegate := d
        roles := if A.delegate ≠ Key.default ∧ A.delegate = d then A.roles ||| x.approveMask
          else x.approveMask }) ↔
    E.signer s = true ∧ A.owner = s ∧ A.state ≠ 1 := by
  constructor
  · rintro ⟨L', h, _⟩
    obtain ⟨a, b, c, rest', he, hp⟩ := exec_approve h
    cases he
    unfold processApprove at hp
    inv at hp
    exact ⟨hp.2.2.2.1, by rw [← hs.owner_eq]; exact hp.2.2.1, hs.unlocked h rfl (by simp)⟩
  · rintro ⟨h1, h2, h3⟩
    by_cases hd : A.delegate ≠ Key.default ∧ A.delegate = d
    · have hst := stores_setRoles hs (A.roles ||| x.approveMask)
      refine ⟨_, accept_calm (L' := L.setData k (setRoles (L k).data (A.roles ||| x.approveMask)))
        hs hu rfl (calm_all hs h3 hc) ?_ (fun y _ => changed_asset hs hu hst y), ?_⟩
      · show processApprove E L k s d x = _
        unfold processApprove
        inv
        refine ⟨hs.1.1, hs.init, by rw [hs.owner_eq]; exact h2, h1, ?_⟩
        rw [hs.delegate_eq, if_pos hd, hs.roles_eq]
        rfl
      · rw [if_pos hd, ← hd.2]
        exact hst
    · have hst := stores_setDelegate hs d x.approveMask
      refine ⟨_, accept_calm (L' := L.setData k (setDelegate (L k).data d x.approveMask))
        hs hu rfl (calm_all hs h3 hc) ?_ (fun y _ => changed_asset hs hu hst y), ?_⟩
      · show processApprove E L k s d x = _
        unfold processApprove
        inv
        refine ⟨hs.1.1, hs.init, by rw [hs.owner_eq]; exact h2, h1, ?_⟩
        rw [hs.delegate_eq, if_neg hd]
        rfl
      · rw [if_neg hd]
        exact hst

/-- Revoke: the owner, or the delegate itself. -/
theorem C48_revoke {x : DelegateInput} (hs : Stores E.program L k A)
    (hu : Usable E k A) (hc : ∀ y ∈ s :: rest, Calm E.program L y) :
    (∃ L', execute E L (k :: s :: rest) (.revoke x) = .ok L') ↔
    E.signer s = true ∧ (A.owner = s ∨ (A.delegate ≠ Key.default ∧ A.delegate = s)) ∧
      A.state ≠ 1 := by
  constructor
  · rintro ⟨L', h⟩
    obtain ⟨a, b, rest', he, hp⟩ := exec_revoke h
    cases he
    unfold processRevoke at hp
    inv at hp
    refine ⟨hp.1, ?_, hs.unlocked h rfl (by simp)⟩
    rw [← hs.owner_eq, ← hs.delegate_eq]
    exact hp.2.2.2.1
  · rintro ⟨h1, h2, h3⟩
    rw [← hs.owner_eq, ← hs.delegate_eq] at h2
    have key : ∃ d, processRevoke E L k s x = .ok (L.setData k d) ∧
        ∃ B, Stores E.program (L.setData k d) k B := by
      unfold processRevoke
      simp only [bind_ok, require_ok, exists_unit, exists_and_left, exists_const]
      cases x with
      | all => exact ⟨_, ⟨h1, hs.1.1, hs.init, h2, rfl⟩, _, stores_setDelegate hs _ _⟩
      | some rs =>
        by_cases hd : hDelegate (L k).data ≠ Key.default
        · by_cases hr : disableRoles (hRoles (L k).data) rs = 0
          · refine ⟨_, ⟨h1, hs.1.1, hs.init, h2, ?_⟩, _, stores_setDelegate hs Key.default 0⟩
            simp only [if_pos hd, if_pos hr]
            rfl
          · refine ⟨_, ⟨h1, hs.1.1, hs.init, h2, ?_⟩, _,
              stores_setRoles hs (disableRoles (hRoles (L k).data) rs)⟩
            simp only [if_pos hd, if_neg hr]
            rfl
        · have e : L.setData k (L k).data = L := by
            funext y
            by_cases hy : y = k
            · subst hy; rw [Ledger.setData_same]
            · rw [Ledger.setData_other _ _ hy]
          refine ⟨(L k).data, ⟨h1, hs.1.1, hs.init, h2, ?_⟩, A, by rw [e]; exact hs⟩
          simp only [if_neg hd]
          rw [e]
          rfl
    obtain ⟨d, hp, B, hb⟩ := key
    exact ⟨_, accept_calm hs hu rfl (calm_all hs h3 hc) hp
      (fun y _ => changed_asset hs hu hb y)⟩

/-- Handover. -/
theorem C48_handover {n : Key} (hs : Stores E.program L k A) (hu : Usable E k A)
    (hc : ∀ x ∈ s :: n :: rest, Whole E.program L x) :
    (∃ L', execute E L (k :: s :: n :: rest) .handover = .ok L' ∧
      Stores E.program L' k { A with authority := n }) ↔
    E.signer s = true ∧ E.signer n = true ∧ A.authority = s ∧ A.mutableByte ≠ 0 := by
  constructor
  · rintro ⟨L', h, _⟩
    obtain ⟨a, b, c, rest', he, hp⟩ := exec_handover h
    cases he
    unfold processHandover at hp
    inv at hp
    exact ⟨hp.1, hp.2.1, by rw [← hs.authority_eq]; exact hp.2.2.2.2.1,
      hs.mutable_eq hp.2.2.2.2.2.1⟩
  · rintro ⟨h1, h2, h3, h4⟩
    have hst := stores_setAuthority hs n
    refine ⟨_, accept_whole (L' := L.setData k (setAuthority (L k).data n)) hs hu rfl
      (whole_all hs hc) rfl ?_ (fun x _ => changed_asset hs hu hst x), hst⟩
    show processHandover E L k s n = _
    unfold processHandover
    inv
    refine ⟨h1, h2, hs.1.1, hs.init, by rw [hs.authority_eq]; exact h3, ?_, trivial⟩
    unfold hMutable
    have : byteAt (L k).data 3 = A.mutableByte := by rw [hs.2.2.1]; rfl
    simpa [this] using h4

/-- Transfer, by the owner or a delegate with the role. -/
theorem C48_transfer {r g : Key} (hs : Stores E.program L k A) (hu : Usable E k A)
    (hm : ManagerReadable A) (hc : ∀ x ∈ s :: r :: g :: rest, Calm E.program L x)
    (hsig : E.signer s = true) (hauth : A.owner = s ∨ A.Delegated s .transfer)
    (hlock : A.state ≠ 1) (hsoul : A.standard ≠ 2) (hroy : RoyaltiesAllow E L k s r A)
    (hgrp : GroupAllows E L k s r g A) :
    ∃ L', execute E L (k :: s :: r :: g :: rest) .transfer = .ok L' ∧
      (A.owner ≠ r → Stores E.program L' k
        { A with owner := r, delegate := Key.default, roles := 0 }) := by
  obtain ⟨b, hb, hbr⟩ := royalties_ok hs hroy
  have hallow : ownerOrDelegate (L k).data s .transfer = .ok true :=
    ownerOrDelegate_ok hs hm hauth
  by_cases ho : A.owner = r
  · refine ⟨L, accept_calm hs hu rfl (calm_all hs hlock hc) ?_ (fun x _ => changed_nothing x),
      fun h => absurd ho h⟩
    show processTransfer E L k s r (optAcc E g) = _
    unfold processTransfer
    inv
    refine ⟨hs.1.1, hsig, hs.init, b, hb, by rw [hs.standard_eq]; exact hsoul, true, hallow, rfl, ?_⟩
    rw [if_pos (by rw [hs.owner_eq]; exact ho)]
    rfl
  · have hst := stores_transfer hs r
    refine ⟨_, accept_calm (L' := L.setData k (setDelegate (setOwner (L k).data r) Key.default 0))
      hs hu rfl (calm_all hs hlock hc) ?_ (fun x _ => changed_asset hs hu hst x), fun _ => hst⟩
    show processTransfer E L k s r (optAcc E g) = _
    unfold processTransfer
    inv
    refine ⟨hs.1.1, hsig, hs.init, b, hb, by rw [hs.standard_eq]; exact hsoul, true, hallow, rfl, ?_⟩
    rw [if_neg (by rw [hs.owner_eq]; exact ho)]
    inv
    refine ⟨?_, trivial⟩
    unfold transferGroupCheck
    rw [hs.group_eq]
    unfold nullable
    split
    · rfl
    · rename_i g' hg'
      split at hg'
      · cases hg'
      · rename_i hne
        cases hg'
        split
        · rfl
        · rename_i hbt
          have hnone : lookup .royalties A.exts = none := by
            by_contra hx
            exact hbt (hbr.mpr hx)
          obtain ⟨rfl, e2, e3, G, hG, hrg⟩ := hgrp hne hnone
          obtain ⟨b', hb', _⟩ := royalties_ok hG hrg
          unfold optAcc
          rw [if_neg e3]
          inv
          refine ⟨hG.1.1, trivial, e2, ?_, hG.1.2.2, b', hb', trivial⟩
          intro hnil
          have := hG.1.2.1
          rw [hnil] at this
          simp at this

/-- The account is gone: its lamports went to the recipient. -/
theorem burn_commit {r : Key} {L1 : Ledger} (hs : Stores E.program L k A) (hu : Usable E k A)
    (h1 : L1 k = L k)
    (hl : ∀ x, (L1 x).lamports = (L x).lamports)
    (hx : ∀ x, L1 x = L x ∨ (E.writable x = true ∧ (L x).owner = E.program ∧
      (L1 x).data.length ≤ 10485760))
    (hr : r ≠ k) (hw : E.writable r = true) (hd : (L r).data.length ≤ 10485760)
    (hsum : (L r).lamports + (L k).lamports < 2 ^ 64) :
    ∃ L', closeAccount L1 k r = .ok L' ∧ L' k = ⟨0, [], Key.system⟩ ∧
      (L' r).lamports = (L r).lamports + (L k).lamports ∧
      ∀ x, changeAllowed E x (L x) (L' x) = true := by
  refine ⟨(L1.setLamports r ((L r).lamports + (L k).lamports)).set k ⟨0, [], Key.system⟩, ?_, ?_, ?_, ?_⟩
  · unfold closeAccount
    rw [if_neg hr, hl r, h1, if_neg (by
      simp only [show two64 = 2 ^ 64 from rfl]; omega)]
  · simp [Ledger.set]
  · simp [Ledger.set, hr, Ledger.setLamports_same]
  · intro x
    by_cases hxk : x = k
    · subst hxk
      refine changed_owned hu.1 hs.1.1 ?_
      simp [Ledger.set]
    · by_cases hxr : x = r
      · subst hxr
        have e : ((L1.setLamports x ((L x).lamports + (L k).lamports)).set k ⟨0, [], Key.system⟩) x =
            ⟨(L x).lamports + (L k).lamports, (L1 x).data, (L1 x).owner⟩ := by
          simp [Ledger.set, hr, Ledger.setLamports]
        rcases hx x with h | ⟨_, h2, h3⟩
        · rw [e, h]
          unfold changeAllowed
          simp [hw, show (L x).data.length ≤ maxDataLen from hd]
        · refine changed_owned hw h2 ?_
          rw [e]; exact h3
      · have e : ((L1.setLamports r ((L r).lamports + (L k).lamports)).set k ⟨0, [], Key.system⟩) x =
            L1 x := by
          simp [Ledger.set, hxk, Ledger.setLamports, hxr]
        rcases hx x with h | ⟨h1, h2, h3⟩
        · rw [e, h]; exact changed_nothing x
        · refine changed_owned h1 h2 ?_
          rw [e]; exact h3

/-- Burn, by the owner or a delegate with the role, of an asset that is no group or an empty one.
A member's group must be given. -/
theorem C48_burn {r g : Key} (hs : Stores E.program L k A) (hu : Usable E k A)
    (hm : ManagerReadable A) (hc : ∀ x ∈ s :: r :: g :: rest, Calm E.program L x)
    (hsig : E.signer s = true) (hauth : A.owner = s ∨ A.Delegated s .burn)
    (hlock : A.state ≠ 1)
    (hempty : ∀ p, lookup .grouping A.exts = some p → IsGroup A p ∧ membersOf p = 0)
    (hgrp : A.group ≠ Key.default → g = A.group ∧ g ≠ k ∧ g ≠ E.program ∧ E.writable g = true ∧
      ∃ G p, Stores E.program L g G ∧ IsGroup G p ∧ membersOf p ≠ 0)
    (hr : r ≠ E.program) (hrk : r ≠ k) (hrw : E.writable r = true)
    (hrd : (L r).data.length ≤ 10485760) (hsum : (L r).lamports + (L k).lamports < 2 ^ 64) :
    ∃ L', execute E L (k :: s :: r :: g :: rest) .burn = .ok L' ∧
      L' k = ⟨0, [], Key.system⟩ ∧ (L' r).lamports = (L r).lamports + (L k).lamports := by
  have hgroup : ∃ L1, burnGroup L k (optAcc E g) (L k).data = .ok L1 ∧ L1 k = L k ∧
      (∀ x, (L1 x).lamports = (L x).lamports) ∧
      (∀ x, L1 x = L x ∨ (E.writable x = true ∧ (L x).owner = E.program ∧
        (L1 x).data.length ≤ 10485760)) := by
    unfold burnGroup
    rw [hs.group_eq]
    unfold nullable
    by_cases hne : A.group = Key.default
    · rw [if_pos hne]
      exact ⟨L, rfl, rfl, fun _ => rfl, fun _ => Or.inl rfl⟩
    · rw [if_neg hne]
      obtain ⟨rfl, e2, e3, e4, G, p, hG, ⟨hp, hp1, hp2⟩, hp3⟩ := hgrp hne
      obtain ⟨off, hoff⟩ := getMut_ok hG (by decide) hp
      have hread := readGrouping_total hp1 hp2
      unfold optAcc
      rw [if_neg e3]
      have hst := (hG.replaceMut (by decide) hoff
        (q := setGroupSize p (membersOf p - 1)) (length_setGroupSize _ hp1)
        (L' := L.setData A.group (splice (L A.group).data off (setGroupSize p (membersOf p - 1))))
        (by rw [Ledger.setData_same]) (by rw [Ledger.setData_same])).2
      refine ⟨L.setData A.group
        (splice (L A.group).data off (setGroupSize p (membersOf p - 1))), ?_, ?_, ?_, ?_⟩
      · inv
        refine ⟨trivial, e2, _, hoff, ?_⟩
        simp only
        inv
        exact ⟨_, hread, hp3, rfl⟩
      · rw [Ledger.setData_other _ _ (Ne.symm e2)]
      · intro x
        by_cases hx : x = A.group
        · rw [hx, Ledger.setData_same]
        · rw [Ledger.setData_other _ _ hx]
      · intro x
        by_cases hx : x = A.group
        · right
          rw [hx]
          exact ⟨e4, hG.1.1, hst.2.1⟩
        · left
          rw [Ledger.setData_other _ _ hx]
  obtain ⟨L1, hL1, hk, hlam, hx⟩ := hgroup
  obtain ⟨L', hclose, hgone, hgot, hcom⟩ := burn_commit hs hu hk hlam hx hrk hrw hrd hsum
  refine ⟨L', accept_calm hs hu rfl (calm_all hs hlock hc) ?_ (fun x _ => hcom x), hgone, hgot⟩
  show processBurn E L k s (optAcc E r) (optAcc E g) = _
  have er : (optAcc E r).getD s = r := by unfold optAcc; rw [if_neg hr]; rfl
  unfold processBurn
  inv
  refine ⟨hs.1.1, hsig, hs.init, true, ownerOrDelegate_ok hs hm hauth, rfl, L1, hL1, _,
    hs.get (by decide), ?_⟩
  cases hp : lookup .grouping A.exts with
  | none => simp only [er]; exact hclose
  | some p =>
    obtain ⟨⟨_, h1, h2⟩, h3⟩ := hempty p hp
    simp only [er]
    inv
    exact ⟨_, readGrouping_total h1 h2, h3, hclose⟩

/-- Verify and Unverify: anybody who is listed as a creator. -/
theorem setVerified_ok {p : Bytes} {v : Bool} (hs : Stores E.program L k A) (hu : Usable E k A)
    (hp : lookup .creators A.exts = some p) (hl : p.length % 34 = 0)
    (hsig : E.signer s = true) (hin : ∃ c ∈ creatorList p, c.address = s) :
    ∃ L', processSetVerified E L k s v = .ok L' ∧
      ∀ x, changeAllowed E x (L x) (L' x) = true := by
  obtain ⟨off, hoff⟩ := getMut_ok hs (by decide) hp
  have hcs : readCreators p = .ok (creatorsFrom (p.length / 34) p) := by
    unfold readCreators
    rw [if_neg (by omega)]
  have hb := readCreators_eq.mp hcs
  have hlist : creatorList p = creatorsFrom (p.length / 34) p := by
    conv_lhs => rw [hb]
    exact creatorList_bytes _
  rw [hlist] at hin
  have hproc : processSetVerified E L k s v = .ok (L.setData k (splice (L k).data off
      (creatorsBytes ((creatorsFrom (p.length / 34) p).map fun c =>
        if c.address = s then { c with verified := podBool v } else c)))) := by
    unfold processSetVerified
    inv
    refine ⟨hsig, hs.1.1, hs.init, _, hoff, ?_⟩
    simp only
    inv
    refine ⟨_, hcs, ?_, rfl⟩
    rw [List.any_eq_true]
    obtain ⟨c, hc, he⟩ := hin
    exact ⟨c, hc, by simpa using he⟩
  obtain ⟨_, _, _, _, _, hst⟩ := setVerified_stores hs hproc
  exact ⟨_, hproc, fun x => changed_asset hs hu hst x⟩

theorem C48_verify {p : Bytes} (hs : Stores E.program L k A) (hu : Usable E k A)
    (hc : ∀ x ∈ s :: rest, Whole E.program L x)
    (hp : lookup .creators A.exts = some p) (hl : p.length % 34 = 0) (hsig : E.signer s = true)
    (hin : ∃ c ∈ creatorList p, c.address = s) :
    (∃ L', execute E L (k :: s :: rest) .verify = .ok L') ∧
    (∃ L', execute E L (k :: s :: rest) .unverify = .ok L') := by
  obtain ⟨L1, h1, c1⟩ := setVerified_ok (v := true) hs hu hp hl hsig hin
  obtain ⟨L2, h2, c2⟩ := setVerified_ok (v := false) hs hu hp hl hsig hin
  exact ⟨⟨L1, accept_whole hs hu rfl (whole_all hs hc) rfl h1 fun x _ => c1 x⟩,
    ⟨L2, accept_whole hs hu rfl (whole_all hs hc) rfl h2 fun x _ => c2 x⟩⟩

theorem changed_two {g : Key} {G B G' : Asset} {L' : Ledger} (hs : Stores E.program L k A)
    (hu : Usable E k A) (hG : Stores E.program L g G) (hgw : E.writable g = true)
    (h1 : Stores E.program L' k B) (h2 : Stores E.program L' g G')
    (h3 : ∀ x, x ≠ k → x ≠ g → L' x = L x) (x : Key) :
    changeAllowed E x (L x) (L' x) = true := by
  by_cases hx : x = k
  · subst hx; exact changed_owned hu.1 hs.1.1 h1.2.1
  · by_cases hg : x = g
    · subst hg; exact changed_owned hgw hG.1.1 h2.2.1
    · rw [h3 x hx hg]; exact changed_nothing x

/-- Group: an asset without group, into a group of the same authority that is not full, by that
authority or the group's delegate. -/
theorem C48_group {g : Key} {G : Asset} {p : Bytes} (hs : Stores E.program L k A)
    (hu : Usable E k A) (hG : Stores E.program L g G) (hgw : E.writable g = true) (hne : g ≠ k)
    (hc : ∀ x ∈ g :: s :: rest, Whole E.program L x) (hp : IsGroup G p) :
    (∃ L', execute E L (k :: g :: s :: rest) .group = .ok L' ∧
      Stores E.program L' k { A with group := g } ∧
      Stores E.program L' g (G.resized p (more (membersOf p)))) ↔
    E.signer s = true ∧ A.group = Key.default ∧ G.authority = A.authority ∧ MayGroup G p s ∧
      (limitOf p = 0 ∨ membersOf p < limitOf p) := by
  obtain ⟨off, hoff⟩ := extGet_ok hG (by decide) hp.1
  have hread := readGrouping_total hp.2.1 hp.2.2
  constructor
  · rintro ⟨L', h, _⟩
    obtain ⟨a, b, c, rest', he, hq⟩ := exec_group h
    cases he
    unfold processGroup at hq
    inv at hq
    obtain ⟨h1, _, _, _, _, _, h2, h3, r, h4, h5⟩ := hq
    rw [hoff] at h4
    cases h4
    simp only at h5
    inv at h5
    obtain ⟨gr, h6, h7, h8, _⟩ := h5
    rw [hread] at h6
    cases h6
    refine ⟨h1, by rw [← hs.group_eq]; exact h2, by rw [← hs.authority_eq, ← hG.authority_eq]; exact h3,
      ?_, h8⟩
    unfold groupAuthority at h7
    rw [hG.authority_eq] at h7
    unfold MayGroup
    by_cases ha : G.authority = s
    · exact Or.inl ha
    · rw [if_pos (Ne.symm ha)] at h7
      right
      by_cases h48 : p.length = 48
      · rw [if_pos h48] at h7
        split at h7
        · rename_i hd
          inv at h7
          exact ⟨h48, hd, h7⟩
        · cases h7
      · rw [if_neg h48] at h7
        simp at h7
  · rintro ⟨h1, h2, h3, h4, h5⟩
    have hproc : processGroup E L k g s = .ok ((L.setData k (setGroup (L k).data g)).setData g
        (splice (L g).data (assetLen + off)
          (setGroupSize p ((membersOf p + 1) % two64)))) := by
      unfold processGroup
      inv
      refine ⟨h1, hs.1.1, hG.1.1, hs.init, hne, hG.init, by rw [hs.group_eq]; exact h2,
        by rw [hs.authority_eq, hG.authority_eq]; exact h3, _, hoff, ?_⟩
      simp only
      inv
      exact ⟨_, hread, groupAuthority_ok hG h4, h5, rfl⟩
    have r1 := (group_asset hproc hs).2.2
    obtain ⟨_, p', r2, _, _, r3⟩ := group_group hproc hG
    rw [hp.1] at r2
    cases r2
    refine ⟨_, accept_whole hs hu rfl (whole_all hs hc) rfl hproc
      (fun x _ => changed_two hs hu hG hgw r1 r3 ?_ x), r1, r3⟩
    intro y h h'
    rw [Ledger.setData_other _ _ h', Ledger.setData_other _ _ h]

/-- Ungroup: by the group's authority or delegate. -/
theorem C48_ungroup {g : Key} {G : Asset} {p : Bytes} (hs : Stores E.program L k A)
    (hu : Usable E k A) (hG : Stores E.program L g G) (hgw : E.writable g = true) (hne : g ≠ k)
    (hc : ∀ x ∈ g :: s :: rest, Whole E.program L x) (hp : IsGroup G p) :
    (∃ L', execute E L (k :: g :: s :: rest) .ungroup = .ok L' ∧
      Stores E.program L' k { A with group := Key.default } ∧
      Stores E.program L' g (G.resized p (fewer (membersOf p)))) ↔
    E.signer s = true ∧ A.group = g ∧ MayGroup G p s := by
  obtain ⟨off, hoff⟩ := extGet_ok hG (by decide) hp.1
  have hread := readGrouping_total hp.2.1 hp.2.2
  constructor
  · rintro ⟨L', h, _⟩
    obtain ⟨a, b, c, rest', he, hq⟩ := exec_ungroup h
    cases he
    unfold processUngroup at hq
    inv at hq
    obtain ⟨h1, _, _, _, _, _, h2, r, h4, h5⟩ := hq
    rw [hoff] at h4
    cases h4
    simp only at h5
    inv at h5
    obtain ⟨gr, h6, h7, _⟩ := h5
    rw [hread] at h6
    cases h6
    refine ⟨h1, by rw [← hs.group_eq]; exact h2, ?_⟩
    unfold groupAuthority at h7
    rw [hG.authority_eq] at h7
    unfold MayGroup
    by_cases ha : G.authority = s
    · exact Or.inl ha
    · rw [if_pos (Ne.symm ha)] at h7
      right
      by_cases h48 : p.length = 48
      · rw [if_pos h48] at h7
        split at h7
        · rename_i hd
          inv at h7
          exact ⟨h48, hd, h7⟩
        · cases h7
      · rw [if_neg h48] at h7
        simp at h7
  · rintro ⟨h1, h2, h4⟩
    have hproc : processUngroup E L k g s = .ok ((L.setData k (setGroup (L k).data Key.default)).setData g
        (splice (L g).data (assetLen + off)
          (setGroupSize p ((membersOf p + two64 - 1) % two64)))) := by
      unfold processUngroup
      inv
      refine ⟨h1, hs.1.1, hG.1.1, hs.init, hne, hG.init, by rw [hs.group_eq]; exact h2, _, hoff, ?_⟩
      simp only
      inv
      exact ⟨_, hread, groupAuthority_ok hG h4, rfl⟩
    have r1 := (ungroup_asset hproc hs).2.2
    obtain ⟨_, p', r2, _, r3⟩ := ungroup_group hproc hG
    rw [hp.1] at r2
    cases r2
    refine ⟨_, accept_whole hs hu rfl (whole_all hs hc) rfl hproc
      (fun x _ => changed_two hs hu hG hgw r1 r3 ?_ x), r1, r3⟩
    intro y h h'
    rw [Ledger.setData_other _ _ h', Ledger.setData_other _ _ h]

end

section Examples
open Verif.Ex

/-- `k 1` is managed by `k 6`, who may transfer and lock. `k 9` is a group with room for two
members, one of them `k 8`, whose creator is `k 7`. -/
def club : Ledger :=
  ledger [(k 1, owned (header 0 1 1 (k 2) Key.default (k 3) (k 4) 7 [65] ++
      blocks 168 [(.manager, (k 6).1 ++ [3])])),
    (k 8, owned (header 0 0 1 (k 2) (k 9) (k 3) Key.default 0 [66] ++
      blocks 168 [(.creators, (k 7).1 ++ [0, 100])])),
    (k 9, owned (header 0 0 1 (k 5) Key.default (k 3) Key.default 0 [67] ++
      blocks 168 [(.grouping, toLE 8 1 ++ toLE 8 2 ++ (k 4).1)])),
    (k 2, wallet), (k 3, wallet), (k 4, wallet), (k 5, wallet), (k 6, wallet), (k 7, wallet)]

def clubManaged : Asset :=
  ⟨0, 1, 1, k 2, Key.default, k 3, k 4, 7, podStr35 [65], [(.manager, (k 6).1 ++ [3])]⟩
def clubMember : Asset :=
  ⟨0, 0, 1, k 2, k 9, k 3, Key.default, 0, podStr35 [66], [(.creators, (k 7).1 ++ [0, 100])]⟩
def clubGroup : Asset :=
  ⟨0, 0, 1, k 5, Key.default, k 3, Key.default, 0, podStr35 [67],
    [(.grouping, toLE 8 1 ++ toLE 8 2 ++ (k 4).1)]⟩

theorem club_managed : Stores prog club (k 1) clubManaged := checkStores_sound (by decide +kernel)
theorem club_member : Stores prog club (k 8) clubMember := checkStores_sound (by decide +kernel)
theorem club_group : Stores prog club (k 9) clubGroup := checkStores_sound (by decide +kernel)

instance (program : Key) (L : Ledger) (x : Key) : Decidable (Calm program L x) :=
  inferInstanceAs (Decidable (_ → _ → _ ∧ _))
instance (program : Key) (L : Ledger) (x : Key) : Decidable (Whole program L x) :=
  inferInstanceAs (Decidable (_ → _ → _))

/-- The hypotheses of the theorems are met: the manager locks and transfers, the owner burns,
group and ungroup by the authority or the delegate, the creator verifies. -/
example : ∃ L', execute (env club [k 6]) club [k 1, k 6] .lock = .ok L' ∧
    Stores prog L' (k 1) { clubManaged with state := 1 } :=
  (C48_lock (E := env club [k 6]) (rest := []) club_managed ⟨rfl, by decide⟩
    (by intro p h; cases h; decide) (by decide +kernel)).mpr
    ⟨by decide +kernel, Or.inl ⟨⟨k 6, 3⟩, by decide +kernel, rfl, show (3 : UInt8) &&& 2 ≠ 0 by decide⟩, by decide⟩

example : ∃ L', execute (env club [k 6]) club [k 1, k 6, k 5, prog] .transfer = .ok L' ∧
    (k 2 ≠ k 5 → Stores prog L' (k 1)
      { clubManaged with owner := k 5, delegate := Key.default, roles := 0 }) :=
  C48_transfer (E := env club [k 6]) (rest := []) club_managed ⟨rfl, by decide⟩
    (by intro p h; cases h; decide) (by decide +kernel) (by decide +kernel)
    (Or.inr ⟨⟨k 6, 3⟩, by decide +kernel, rfl, show (3 : UInt8) &&& 1 ≠ 0 by decide⟩) (by decide) (by decide)
    (by intro p h; cases h) (by intro h; exact absurd rfl h)

example : ∃ L', execute (env club [k 2]) club [k 8, k 2, k 5, k 9] .burn = .ok L' ∧
    L' (k 8) = ⟨0, [], Key.system⟩ ∧ (L' (k 5)).lamports = 5000000 + 1000000 :=
  C48_burn (E := env club [k 2]) (rest := []) club_member ⟨rfl, by decide⟩
    (by intro p h; cases h) (by decide +kernel) (by decide +kernel) (Or.inl rfl) (by decide)
    (by intro p h; cases h)
    (fun _ => ⟨rfl, by decide +kernel, by decide +kernel, rfl, clubGroup, _, club_group,
      ⟨rfl, by decide +kernel, by decide +kernel⟩, by decide +kernel⟩)
    (by decide +kernel) (by decide +kernel) rfl (by decide +kernel) (by decide +kernel)

example : ∃ L', execute (env club [k 4]) club [k 1, k 9, k 4] .group = .ok L' ∧
    Stores prog L' (k 1) { clubManaged with group := k 9 } ∧
    Stores prog L' (k 9) (clubGroup.resized (toLE 8 1 ++ toLE 8 2 ++ (k 4).1) 2) :=
  (C48_group (E := env club [k 4]) (rest := []) club_managed ⟨rfl, by decide⟩ club_group rfl
    (by decide +kernel) (by decide +kernel) ⟨rfl, by decide +kernel, by decide +kernel⟩).mpr
    ⟨by decide +kernel, rfl, rfl, Or.inr ⟨by decide +kernel, by decide +kernel, by decide +kernel⟩,
      Or.inr (by decide +kernel)⟩

example : ∃ L', execute (env club [k 3]) club [k 8, k 9, k 3] .ungroup = .ok L' ∧
    Stores prog L' (k 8) { clubMember with group := Key.default } ∧
    Stores prog L' (k 9) (clubGroup.resized (toLE 8 1 ++ toLE 8 2 ++ (k 4).1) 0) :=
  (C48_ungroup (E := env club [k 3]) (rest := []) club_member ⟨rfl, by decide⟩ club_group rfl
    (by decide +kernel) (by decide +kernel) ⟨rfl, by decide +kernel, by decide +kernel⟩).mpr
    ⟨by decide +kernel, rfl, Or.inl rfl⟩

example : (∃ L', execute (env club [k 7]) club [k 8, k 7] .verify = .ok L') ∧
    ∃ L', execute (env club [k 7]) club [k 8, k 7] .unverify = .ok L' :=
  C48_verify (E := env club [k 7]) (rest := []) club_member ⟨rfl, by decide⟩ (by decide +kernel)
    rfl (by decide +kernel) (by decide +kernel)
    ⟨⟨k 7, 0, 100⟩, by decide +kernel, rfl⟩

/-- Others are refused. -/
example :
    [run club [k 2] [k 1, k 2] .lock, run club [k 4] [k 1, k 4, k 5, prog] .transfer,
      run club [k 5] [k 8, k 5, k 5, k 9] .burn, run club [k 5] [k 1, k 9, k 5] .group,
      run club [k 3] [k 8, k 3] .verify].map (·.isOk) = [false, false, false, false, false] := by
  decide +kernel

end Examples
end Verif.Props
