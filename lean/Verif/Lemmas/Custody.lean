import Verif.Lemmas.BridgeCreate
import Verif.Lemmas.Life

/-!
# One step of a bridged token
-/

namespace Verif

open Verif.Spec

section
variable {E : Env} {C : BridgeConsts} {S S' : Chain} {L L' : Ledger} {accts : List Key}
  {derive : Bytes → UInt8 → Key → Option Key} {program assetId vault asset mint : Key}

/-- The ledger when the calls are made. -/
def flipped (S : Chain) (vault : Key) (active : Bool) : Ledger :=
  S.ledger.setData vault (setByte (S.ledger vault).data 1 (if active then 0 else 1))

/-- The two transfers of a Bridge instruction. -/
theorem swap_ok {act : Bool} {owner : Key} {group : Option Key}
    (h : bridgeSwap E C S act asset vault owner mint group = .ok S') :
    ∃ F s r g, F.program = C.assetId ∧ (∀ x, F.signer x = true ↔ x = s) ∧
      execute F (flipped S vault act) [asset, s, r, g] .transfer = .ok S'.ledger ∧
      (act = true → s = owner ∧ r = vault ∧ S.holder mint = vault ∧
        S'.holder = fun m => if m = mint then owner else S.holder m) ∧
      (act = false → s = vault ∧ r = owner ∧ S.holder mint = owner ∧
        S'.holder = fun m => if m = mint then vault else S.holder m) := by
  have sig : ∀ (L : Ledger) (a s r : Key) (x : Key),
      (calleeEnv E C.assetId L (assetTransferMetas C a s r group)).signer x = true ↔ x = s := by
    intro L a s r x
    simp only [calleeEnv, assetTransferMetas, List.any_cons, List.any_nil, Bool.and_false,
      Bool.or_false, Bool.false_or, Bool.and_true, decide_eq_true_eq]
    exact eq_comm
  unfold bridgeSwap at h
  cases act with
  | true =>
    simp only [if_true] at h
    inv at h
    obtain ⟨T, hT, L1, hL, h⟩ := h
    cases h
    obtain ⟨he, _⟩ := invokeAsset_ok (i := .transfer) trivial hL
    unfold tokenTransfer at hT
    split at hT
    · rename_i hc
      cases hT
      exact ⟨_, _, _, _, rfl, sig _ _ _ _, he, fun _ => ⟨rfl, rfl, hc.1, rfl⟩,
        by intro h; cases h⟩
    · cases hT
  | false =>
    simp only [Bool.false_eq_true, if_false] at h
    inv at h
    obtain ⟨T, hT, L1, hL, h⟩ := h
    cases h
    obtain ⟨he, _⟩ := invokeAsset_ok (i := .transfer) trivial hL
    unfold tokenTransfer at hT
    split at hT
    · rename_i hc
      cases hT
      exact ⟨_, _, _, _, rfl, sig _ _ _ _, he, (by intro h; cases h),
        fun _ => ⟨rfl, rfl, hc.1, rfl⟩⟩
    · cases hT

/-- A transfer hands the asset to the recipient. -/
theorem transfer_moves {s r g : Key} {A : Asset} (hs : Stores E.program L asset A)
    (h : execute E L [asset, s, r, g] .transfer = .ok L') :
    ∃ A', Stores E.program L' asset A' ∧ Move E [asset, s, r, g] asset .transfer A A' ∧
      A'.owner = r ∧ (A.owner = s ∨ A.Delegated s .transfer) ∧
      (A' = A ∨ A'.delegate = Key.default) := by
  have hau : A.owner = s ∨ A.Delegated s .transfer := by
    obtain ⟨a', s', r', g', rest', he, ht⟩ := exec_transfer h
    cases he
    unfold processTransfer at ht
    inv at ht
    obtain ⟨_, _, _, _, _, _, b, hb, hbt, _⟩ := ht
    subst hbt
    rcases ownerOrDelegate_true hb with h | h
    · refine Or.inl ?_
      rw [hs.2.2.1]
      exact h
    · exact Or.inr (hs.delegated h)
  rcases refine hs h trivial with ⟨hb, _⟩ | ⟨A', h1, hm⟩
  · cases hb
  · refine ⟨A', h1, hm, ?_⟩
    cases hm with
    | stay _ _ hi =>
      have : some r = some A.owner := hi rfl
      exact ⟨(Option.some.inj this).symm, hau, Or.inl rfl⟩
    | transfer _ s' r' rest ha =>
      cases ha
      exact ⟨rfl, hau, Or.inr rfl⟩
    | memberIn _ _ _ hi => rcases hi with hi | ⟨_, hi⟩ <;> cases hi
    | memberOut _ _ _ hi => rcases hi with hi | hi <;> cases hi

theorem stores_flipped {act : Bool} {A : Asset} (hs : Stores assetId S.ledger asset A)
    (hne : asset ≠ vault) : Stores assetId (flipped S vault act) asset A := by
  have e : flipped S vault act asset = S.ledger asset := Ledger.setData_other _ _ hne
  exact hs.congr (by rw [e]) (by rw [e])

theorem flipped_vault {act : Bool} :
    (flipped S vault act vault).data = setByte (S.ledger vault).data 1 (if act then 0 else 1) ∧
      (flipped S vault act vault).owner = (S.ledger vault).owner := by
  unfold flipped
  rw [Ledger.setData_same]
  exact ⟨rfl, rfl⟩

/-- The bytes of a vault after a Bridge instruction on it. -/
theorem vault_after {act : Bool} {F : Env} {s r g : Key}
    (h : execute F (flipped S vault act) [asset, s, r, g] .transfer = .ok S'.ledger)
    (ho : (S.ledger vault).owner = program) (hp : program ≠ F.program)
    (hl : 36 ≤ (S.ledger vault).data.length) :
    (S'.ledger vault).data = setByte (S.ledger vault).data 1 (if act then 0 else 1) ∧
      (S'.ledger vault).owner = program := by
  obtain ⟨f1, f2⟩ := flipped_vault (S := S) (vault := vault) (act := act)
  have hlen : (setByte (S.ledger vault).data 1 (if act then 0 else 1)).length =
      (S.ledger vault).data.length := length_splice (by simp; omega)
  obtain ⟨g1, g2⟩ := vault_untouched h (f2.trans ho) hp (by
    rw [f1]
    intro e
    rw [e] at hlen
    simp at hlen
    omega)
  exact ⟨g1.trans f1, g2.trans (f2.trans ho)⟩

theorem vault_bytes {d : Bytes} {b : UInt8} (hl : 36 ≤ d.length) :
    (setByte d 1 b).length = d.length ∧ byteAt (setByte d 1 b) 0 = byteAt d 0 ∧
      byteAt (setByte d 1 b) 1 = b ∧ keyAt (setByte d 1 b) 3 = keyAt d 3 ∧
      byteAt (setByte d 1 b) 35 = byteAt d 35 := by
  have h : 1 + [b].length ≤ d.length := by simp; omega
  unfold setByte
  refine ⟨length_splice h, byteAt_splice_disjoint h (by simp), ?_,
    keyAt_splice_disjoint h (by simp), byteAt_splice_disjoint h (by simp)⟩
  rw [byteAt_splice_inside h (by simp) (by simp)]
  rfl

/-- Moves that the vault has not signed. -/
theorem custody_move {A A' : Asset} {i : Instr} {k : Key} (hu : Unmanaged A)
    (hd : A.owner = vault → A.delegate = Key.default) (hv : E.signer vault = false)
    (hm : Move E accts k i A A') :
    Unmanaged A' ∧ (A'.owner = vault → A'.delegate = Key.default) ∧
      (A.owner = vault → A'.owner = vault) := by
  refine ⟨unmanaged_move hu hm, ?_⟩
  by_cases ho : A.owner = vault
  · obtain ⟨h1, h2⟩ := held_move hu ho (hd ho) hv hm
    exact ⟨fun _ => h2, fun _ => h1⟩
  · refine ⟨?_, fun h => absurd h ho⟩
    cases hm with
    | transfer _ s r rest ha hs hau => exact fun _ => rfl
    | _ => exact fun h => absurd h ho

/-- Nothing happens to the vault and its asset. -/
theorem custody_congr (hv : IsVault derive program vault asset mint S)
    (hc : Custody assetId vault asset mint S)
    (h1 : (S'.ledger vault).owner = (S.ledger vault).owner)
    (h2 : (S'.ledger vault).data = (S.ledger vault).data)
    (h3 : (S'.ledger asset).owner = (S.ledger asset).owner)
    (h4 : (S'.ledger asset).data = (S.ledger asset).data)
    (ht : S.holder mint = vault → S'.holder mint = vault) :
    IsVault derive program vault asset mint S' ∧ Custody assetId vault asset mint S' := by
  obtain ⟨v1, v2, v3, v4, v5, v6⟩ := hv
  obtain ⟨A, hA, hu, hd, hi, ha⟩ := hc
  have e : vaultActive S' vault = vaultActive S vault := by unfold vaultActive; rw [h2]
  refine ⟨⟨h1.trans v1, by rw [h2]; exact v2, by rw [h2]; exact v3, by rw [h2]; exact v4,
    by rw [h2]; exact v5, by rw [h2]; exact v6⟩, A, hA.congr h3 h4, hu, hd, ?_, ?_⟩
  · rw [e]; exact hi
  · rw [e]; exact fun h => ht (ha h)

/-- An instruction of the asset program that the vault has not signed. -/
theorem custody_instr {i : Instr} (hne : program ≠ E.program)
    (hv : IsVault derive program vault asset mint S) (hc : Custody E.program vault asset mint S)
    (hsv : E.signer vault = false) (he : execute E S.ledger accts i = .ok L')
    (hb : ¬ (i = .burn ∧ accts.head? = some asset))
    (hs : ∀ A, Stores E.program S.ledger asset A → Sound asset A accts i) :
    IsVault derive program vault asset mint ⟨L', S.holder⟩ ∧
      Custody E.program vault asset mint ⟨L', S.holder⟩ := by
  obtain ⟨v1, v2, v3, v4, v5, v6⟩ := hv
  obtain ⟨A, hA, hu, hd, hi, ha⟩ := hc
  have hdata : (S.ledger vault).data ≠ [] := by
    intro e
    rw [e] at v2
    simp at v2
  obtain ⟨g1, g2⟩ := vault_untouched he v1 hne hdata
  have e : vaultActive ⟨L', S.holder⟩ vault = vaultActive S vault := by
    unfold vaultActive; simp only; rw [g1]
  refine ⟨⟨g2.trans v1, by simp only; rw [g1]; exact v2, by simp only; rw [g1]; exact v3,
    by simp only; rw [g1]; exact v4, by simp only; rw [g1]; exact v5,
    by simp only; rw [g1]; exact v6⟩, ?_⟩
  rcases refine hA he (hs A hA) with ⟨b1, b2, _⟩ | ⟨A', a1, hm⟩
  · exact absurd ⟨b1, b2⟩ hb
  · obtain ⟨m1, m2, m3⟩ := custody_move hu hd hsv hm
    exact ⟨A', a1, m1, m2, fun h => m3 (hi (e ▸ h)), fun h => ha (e ▸ h)⟩

/-- A call of the bridge for another asset. -/
theorem custody_call {c : Call} {pda : Key} (hne : E.program ≠ C.assetId)
    (hv : IsVault derive E.program vault asset mint S)
    (hc : Custody C.assetId vault asset mint S) (hsv : E.signer vault = false)
    (hok : InstrOk (instrOf c)) (hcc : (∃ x, instrOf c = .create x) ∨ ∃ x, instrOf c = .allocate x)
    (hh : (c.build C.assetId).keys.head? = some pda)
    (h : bridgeCall E C pda S.ledger c = .ok L') :
    IsVault derive E.program vault asset mint ⟨L', S.holder⟩ ∧
      Custody C.assetId vault asset mint ⟨L', S.holder⟩ := by
  obtain ⟨he, hm⟩ := bridgeCall_ok hok h
  have hdata : (S.ledger vault).data ≠ [] := by
    intro e
    have := hv.2.1
    rw [e] at this
    simp at this
  have hpv : pda ≠ vault := by
    rintro rfl
    rcases newborn_head he hcc hh with h0 | h0
    · exact hdata h0
    · exact hne (hv.1.symm.trans h0)
  refine custody_instr (E := calleeEnv E C.assetId S.ledger (c.build C.assetId).metas) hne hv hc ?_
    he ?_ ?_
  · cases hx : (calleeEnv E C.assetId S.ledger (c.build C.assetId).metas).signer vault with
    | false => rfl
    | true =>
      obtain ⟨m, m1, m2⟩ := List.any_eq_true.mp hx
      simp only [Bool.and_eq_true, decide_eq_true_eq] at m2
      rcases (hm m m1).1 m2.2 with h | h
      · rw [m2.1, hsv] at h; cases h
      · exact absurd ((List.mem_singleton.mp h).symm.trans m2.1) hpv
  · rintro ⟨hb, -⟩
    rcases hcc with ⟨x, hx⟩ | ⟨x, hx⟩ <;> rw [hb] at hx <;> cases hx
  · intro A _
    rcases hcc with ⟨x, hx⟩ | ⟨x, hx⟩ <;> rw [hx] <;> trivial

/-- Creating an asset on the bridge does not concern the other vaults. -/
theorem custody_create {x : BridgeCreateAccts} {col : Bool} (hne : E.program ≠ C.assetId)
    (hgood : ∀ d m, C.metadata d = some m → GoodToken m)
    (hv : IsVault derive E.program vault asset mint S)
    (hc : Custody C.assetId vault asset mint S) (hsv : E.signer vault = false)
    (h : processBridgeCreate E C S.ledger x col = .ok L') :
    IsVault derive E.program vault asset mint ⟨L', S.holder⟩ ∧
      Custody C.assetId vault asset mint ⟨L', S.holder⟩ := by
  obtain ⟨m, bump, assetBump, L1, L2, c1, _, _, c4, _, c6, c7⟩ := bridgeCreate_ok h
  obtain ⟨d1, d2⟩ := createVault_ok c4
  have hdata : (S.ledger vault).data ≠ [] := by
    intro e
    have := hv.2.1
    rw [e] at this
    simp at this
  have hvv : vault ≠ x.vault := by
    rintro rfl
    exact hdata d1
  have hav : asset ≠ x.vault := by
    rintro rfl
    obtain ⟨A, hA, _⟩ := hc
    have := hA.1.2.1
    rw [d1] at this
    simp at this
  obtain ⟨g1, g2⟩ := custody_congr (S' := ⟨L1.setData x.vault (newVault x.mint bump assetBump),
      S.holder⟩) hv hc
    (by simp only; rw [Ledger.setData_other _ _ hvv]; exact (d2.2.2 _ hvv).2)
    (by simp only; rw [Ledger.setData_other _ _ hvv]; exact (d2.2.2 _ hvv).1)
    (by simp only; rw [Ledger.setData_other _ _ hav]; exact (d2.2.2 _ hav).2)
    (by simp only; rw [Ledger.setData_other _ _ hav]; exact (d2.2.2 _ hav).1) id
  have hg := hgood _ m c1.1
  have allocs : ∀ (es : List Extn) (S1 : Chain) (L3 : Ledger),
      (∀ e ∈ es, e.2.length ≤ 10485760) →
      IsVault derive E.program vault asset mint S1 → Custody C.assetId vault asset mint S1 →
      bridgeAllocate E C x S1.ledger es = .ok L3 →
      IsVault derive E.program vault asset mint ⟨L3, S1.holder⟩ ∧
        Custody C.assetId vault asset mint ⟨L3, S1.holder⟩ := by
    intro es
    induction es with
    | nil => intro S1 L3 _ h1 h2 h; cases h; exact ⟨h1, h2⟩
    | cons e es ih =>
      intro S1 L3 hl h1 h2 h
      unfold bridgeAllocate at h
      inv at h
      obtain ⟨L4, h3, h4⟩ := h
      obtain ⟨k1, k2⟩ := custody_call hne h1 h2 hsv (bridgeAllocate_fits (hl e (by simp)))
        (Or.inr ⟨_, rfl⟩) rfl h3
      exact ih ⟨L4, S1.holder⟩ L3 (fun e he => hl e (by simp [he])) k1 k2 h4
  obtain ⟨k1, k2⟩ := allocs _ ⟨_, _⟩ _ (fun e he => (bridgeExts_fit hg e he).2) g1 g2 c6
  exact custody_call (S := ⟨L2, S.holder⟩) hne k1 k2 hsv (bridgeCreate_fits hg) (Or.inl ⟨_, rfl⟩)
    rfl c7

/-- One step keeps the vault and the custody. -/
theorem custody_step (hne : program ≠ assetId)
    (hv : IsVault derive program vault asset mint S) (hc : Custody assetId vault asset mint S)
    (h : BridgeStep derive program assetId vault asset S S') :
    IsVault derive program vault asset mint S' ∧ Custody assetId vault asset mint S' := by
  cases h with
  | other hf ho hdt ht =>
    obtain ⟨A, hA, _⟩ := id hc
    obtain ⟨f1, f2⟩ := (hf asset).1 hA.1.1
    exact custody_congr hv hc ho hdt (f1.trans hA.1.1.symm) f2 (ht _)
  | instr E accts i hp hsv he hb hs =>
    subst hp
    exact custody_instr hne hv hc hsv he hb hs
  | bridge E C accts data hp hpd hca hsv hgood hpr =>
    subst hp hca
    unfold bridgeProcess at hpr
    split at hpr
    case h_3 => cases hpr
    case h_2 =>
      split at hpr
      · split at hpr
        · inv at hpr
          obtain ⟨L', h1, h2⟩ := hpr
          cases h2
          exact custody_create hne hgood hv hc hsv h1
        · cases hpr
      · cases hpr
    obtain ⟨v1, v2, v3, v4, v5, v6⟩ := hv
    obtain ⟨A, hA, hu, hd, hi, ha⟩ := hc
    have hdata : (S.ledger vault).data ≠ [] := by
      intro e
      rw [e] at v2
      simp at v2
    have hav : asset ≠ vault := by
      rintro rfl
      exact hne (v1.symm.trans hA.1.1)
    obtain ⟨asset', vault', owner', token', mint', rest, group, act, rfl, h1, h2, h3, h4, h5, h6, h7,
      h8⟩ := bridge_ok hpr
    obtain ⟨F, s, r, g, f1, fs, he, ft, ff⟩ := swap_ok h8
    have how : owner' ≠ vault := by
      rintro rfl
      rw [h1] at hsv
      cases hsv
    by_cases hvv : vault' = vault
    · -- a Bridge instruction on this vault
      subst hvv
      obtain rfl : mint' = mint := h5.symm.trans v5
      obtain rfl : asset' = asset := by
        unfold bridgedAddress at h6
        rw [hpd, v6] at h6
        exact (Option.some.inj h6).symm
      obtain ⟨w1, w2⟩ := vault_after he h3 (by rw [f1]; exact hne) h4
      obtain ⟨b1, b2, b3, b4, b5⟩ := vault_bytes (b := if act then 0 else 1) h4
      have hact : vaultActive S vault' = act := by
        unfold vaultActive
        rw [h7]
        cases act <;> rfl
      have hact' : vaultActive S' vault' = !act := by
        unfold vaultActive
        rw [w1, b3]
        cases act <;> rfl
      refine ⟨⟨w2, by rw [w1, b1]; exact v2, by rw [w1, b2]; exact v3, ?_, by rw [w1, b4]; exact v5,
        by rw [w1, b5]; exact v6⟩, ?_⟩
      · rw [w1, b3]
        cases act
        · exact Or.inr rfl
        · exact Or.inl rfl
      have hA' := hA
      rw [← f1] at hA'
      obtain ⟨A', a1, am, a2, _, a4⟩ := transfer_moves (stores_flipped hA' hav) he
      rw [f1] at a1
      refine ⟨A', a1, unmanaged_move hu am, ?_, ?_, ?_⟩
      · rcases a4 with rfl | a4
        · exact hd
        · exact fun _ => a4
      · intro hf
        rw [hact'] at hf
        obtain ⟨_, hr, _⟩ := ft (by simpa using hf)
        exact a2.trans hr
      · intro hf
        rw [hact'] at hf
        obtain ⟨_, _, _, g4⟩ := ff (by simpa using hf)
        rw [g4]
        simp
    · -- on another vault
      have hsig : F.signer vault = false := by
        cases hx : F.signer vault with
        | false => rfl
        | true =>
          have := (fs vault).mp hx
          cases act with
          | true => exact absurd ((ft rfl).1.symm.trans this.symm) how
          | false => exact absurd ((ff rfl).1.symm.trans this.symm) hvv
      have e1 : flipped S vault' act vault = S.ledger vault :=
        Ledger.setData_other _ _ (Ne.symm hvv)
      obtain ⟨g1, g2⟩ := vault_untouched (vault := vault) he
        (show _ = E.program by rw [e1]; exact v1)
        (by rw [f1]; exact hne) (by rw [e1]; exact hdata)
      rw [e1] at g1 g2
      have e : vaultActive S' vault = vaultActive S vault := by unfold vaultActive; rw [g1]
      refine ⟨⟨g2.trans v1, by rw [g1]; exact v2, by rw [g1]; exact v3, by rw [g1]; exact v4,
        by rw [g1]; exact v5, by rw [g1]; exact v6⟩, ?_⟩
      have hav' : asset ≠ vault' := by
        rintro rfl
        exact hne (h3.symm.trans hA.1.1)
      have hA' := hA
      rw [← f1] at hA'
      rcases refine (stores_flipped (act := act) hA' hav') he trivial with ⟨b1, _⟩ | ⟨A', a1, hm⟩
      · cases b1
      rw [f1] at a1
      obtain ⟨m1, m2, m3⟩ := custody_move hu hd hsig hm
      refine ⟨A', a1, m1, m2, fun h => m3 (hi (e ▸ h)), fun h => ?_⟩
      have hh := ha (e ▸ h)
      cases act with
      | true =>
        obtain ⟨_, _, g3, g4⟩ := ft rfl
        rw [g4]
        simp only
        split
        · rename_i hm
          rw [hm] at hh
          exact absurd (g3.symm.trans hh) hvv
        · exact hh
      | false =>
        obtain ⟨_, _, g3, g4⟩ := ff rfl
        rw [g4]
        simp only
        split
        · rename_i hm
          rw [hm] at hh
          exact absurd (g3.symm.trans hh) how
        · exact hh

end

end Verif
