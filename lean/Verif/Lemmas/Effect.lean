import Verif.Lemmas.Frame
import Verif.Lemmas.Inv

/-!
# What a whole instruction may change
-/

namespace Verif

/-- Data and owner change only at the keys `K`, lamports only at `K` and `P`; only `k` or a
signing system account can lose lamports. -/
structure Effect (E : Env) (k : Key) (K P : List Key) (L L' : Ledger) : Prop where
  data : ∀ x, x ∉ K → (L' x).data = (L x).data ∧ (L' x).owner = (L x).owner
  other : ∀ x, x ∉ K → x ∉ P → L' x = L x
  conserve : ∀ ks : List Key, ks.Nodup → (∀ x ∈ K, x ∈ ks) → (∀ x ∈ P, x ∈ ks) →
    total ks L < two64 → total ks L' = total ks L
  loss : ∀ ks : List Key, ks.Nodup → (∀ x ∈ K, x ∈ ks) → (∀ x ∈ P, x ∈ ks) →
    total ks L < two64 → ∀ x, x ≠ k → (L' x).lamports < (L x).lamports →
    E.signer x = true ∧ (L x).owner = Key.system
  newOwner : ∀ x, x ≠ k → (L' x).owner = (L x).owner

variable {E : Env} {k : Key} {K P : List Key} {L L' L'' : Ledger}

theorem Effect.refl : Effect E k K P L L :=
  ⟨fun _ _ => ⟨rfl, rfl⟩, fun _ _ _ => rfl, fun _ _ _ _ _ => rfl,
    fun _ _ _ _ _ _ _ h => absurd h (by omega), fun _ _ => rfl⟩

theorem Effect.trans (h1 : Effect E k K P L L') (h2 : Effect E k K P L' L'') :
    Effect E k K P L L'' where
  data x hx := by
    obtain ⟨a, b⟩ := h1.data x hx
    obtain ⟨c, d⟩ := h2.data x hx
    exact ⟨c.trans a, d.trans b⟩
  other x hx hp := (h2.other x hx hp).trans (h1.other x hx hp)
  conserve ks hn hk hp ht := by
    have e := h1.conserve ks hn hk hp ht
    rw [h2.conserve ks hn hk hp (by omega), e]
  loss ks hn hk hp ht x hx hl := by
    by_cases h : (L' x).lamports < (L x).lamports
    · exact h1.loss ks hn hk hp ht x hx h
    · have e := h1.conserve ks hn hk hp ht
      have := h2.loss ks hn hk hp (by omega) x hx (by omega)
      rwa [h1.newOwner x hx] at this
  newOwner x hx := (h2.newOwner x hx).trans (h1.newOwner x hx)

theorem Eff.lift {payer : Option Key} (h : Eff E k payer L L') (hk : k ∈ K)
    (hp : ∀ p, payer = some p → p ∈ P) : Effect E k K P L L' where
  data x hx := h.data x (by rintro rfl; exact hx hk)
  other x hx hxp := h.other x (by rintro rfl; exact hx hk) (fun h => hxp (hp x h))
  conserve ks hn h1 h2 ht := h.conserve ks hn (h1 k hk) (fun p h => h2 p (hp p h)) ht
  loss ks hn h1 h2 ht := h.loss ks hn (h1 k hk) (fun p h => h2 p (hp p h)) ht
  newOwner x hx := (h.data x hx).2

theorem Effect.setData {x : Key} (d : Bytes) (hx : x ∈ K) : Effect E k K P L (L.setData x d) where
  data y hy := by
    rw [Ledger.setData_other _ _ (by rintro rfl; exact hy hx)]; exact ⟨rfl, rfl⟩
  other y hy _ := Ledger.setData_other _ _ (by rintro rfl; exact hy hx)
  conserve ks _ _ _ _ := total_congr fun y _ => by
    by_cases hy : y = x
    · subst hy; rw [Ledger.setData_same]
    · rw [Ledger.setData_other _ _ hy]
  loss _ _ _ _ _ y _ hl := by
    by_cases hy : y = x
    · subst hy; rw [Ledger.setData_same] at hl; exact absurd hl (by simp)
    · rw [Ledger.setData_other _ _ hy] at hl; omega
  newOwner y _ := by
    by_cases hy : y = x
    · subst hy; rw [Ledger.setData_same]
    · rw [Ledger.setData_other _ _ hy]

theorem Effect.close {r : Key} (h : closeAccount L k r = .ok L') (hk : k ∈ K) (hr : r ∈ P) :
    Effect E k K P L L' := by
  unfold closeAccount at h
  split at h
  · cases h
  · rename_i hne
    split at h
    · cases h
    · cases h
      refine ⟨fun x hx => ?_, fun x hx hp => ?_, fun ks hn h1 h2 ht => ?_,
        fun _ _ _ _ _ x hx hl => ?_, fun x hx => ?_⟩
      · rw [Ledger.set_other _ _ (by rintro rfl; exact hx hk)]; exact setLamports_data _ _ _
      · rw [Ledger.set_other _ _ (by rintro rfl; exact hx hk),
          Ledger.setLamports_other _ _ (by rintro rfl; exact hp hr)]
      · have e1 := total_setLamports hn (h2 r hr) L ((L r).lamports + (L k).lamports)
        have e2 := total_setLamports hn (h1 k hk)
          (L.setLamports r ((L r).lamports + (L k).lamports)) 0
        rw [Ledger.setLamports_other _ _ (fun h => hne h.symm)] at e2
        have e3 : total ks ((L.setLamports r ((L r).lamports + (L k).lamports)).set k
            ⟨0, [], Key.system⟩) =
            total ks ((L.setLamports r ((L r).lamports + (L k).lamports)).setLamports k 0) := by
          apply total_congr
          intro x _
          by_cases hx : x = k
          · subst hx; rw [Ledger.set_same, Ledger.setLamports_same]
          · rw [Ledger.set_other _ _ hx, Ledger.setLamports_other _ _ hx]
        omega
      · rw [Ledger.set_other _ _ hx] at hl
        by_cases hxr : x = r
        · subst hxr
          rw [Ledger.setLamports_same] at hl
          simp only at hl
          omega
        · rw [Ledger.setLamports_other _ _ hxr] at hl; omega
      · rw [Ledger.set_other _ _ hx]; exact (setLamports_data _ _ _).2

/-- Positions of the accounts whose data an instruction may change. -/
def Instr.dataPositions : Instr → List Nat
  | .burn | .create _ => [0, 3]
  | .group | .ungroup => [0, 1]
  | .update _ => [0, 2]
  | _ => [0]

/-- The accounts at these positions. -/
def dataKeys (i : Instr) (accts : List Key) : List Key :=
  i.dataPositions.filterMap fun p => accts[p]?

/-- Inversion of Create. -/
theorem processCreate_inv {asset au owner : Key} {group ga payer sys : Option Key}
    {x : CreateInput} (h : processCreate E L asset au owner group ga payer sys x = .ok L') :
    E.signer asset = true ∧ ∃ L1 L2 d types,
      createPrepare E L asset payer sys x = .ok L1 ∧
      allocateAll E asset payer sys (createOrder (x.extensions.getD [])) L1 = .ok L2 ∧
      168 ≤ (L2 asset).data.length ∧
      createValidate au ((L2 asset).data.length + 1) (L2 asset).data assetLen = .ok (d, types) ∧
      (x.standard = .managed ↔ ExtType.manager ∈ types) ∧
      createProxyCheck E asset (createHeader d owner au x) x.standard = .ok () ∧
      ((group = none ∧ L' = L2.setData asset (createHeader d owner au x)) ∨
       ∃ g, group = some g ∧ processGroup E (L2.setData asset (createHeader d owner au x)) asset g
          (ga.getD au) = .ok L') := by
  unfold processCreate at h
  inv at h
  obtain ⟨hs, L1, h1, L2, h2, hl, ⟨d, types⟩, h3, h4, h5, h⟩ := h
  refine ⟨hs, L1, L2, d, types, h1, h2, hl, h3, h4, h5, ?_⟩
  cases group with
  | none => exact Or.inl ⟨rfl, (pure_ok.mp h).symm⟩
  | some g => exact Or.inr ⟨g, rfl, h⟩

theorem processGroup_effect {a g au : Key} (h : processGroup E L a g au = .ok L') (ha : a ∈ K)
    (hg : g ∈ K) : Effect E a K P L L' := by
  unfold processGroup at h
  inv at h
  obtain ⟨_, _, _, _, _, _, _, _, r, _, h⟩ := h
  cases r with
  | none => cases h
  | some r =>
    inv at h
    obtain ⟨_, _, _, _, rfl⟩ := h
    exact (Effect.setData _ ha).trans (Effect.setData _ hg)

theorem processUngroup_effect {a g au : Key} (h : processUngroup E L a g au = .ok L') (ha : a ∈ K)
    (hg : g ∈ K) : Effect E a K P L L' := by
  unfold processUngroup at h
  inv at h
  obtain ⟨_, _, _, _, _, _, _, r, _, h⟩ := h
  cases r with
  | none => cases h
  | some r =>
    inv at h
    obtain ⟨_, _, _, rfl⟩ := h
    exact (Effect.setData _ ha).trans (Effect.setData _ hg)

theorem processSetVerified_effect {a c : Key} {v : Bool}
    (h : processSetVerified E L a c v = .ok L') (ha : a ∈ K) : Effect E a K P L L' := by
  unfold processSetVerified at h
  inv at h
  obtain ⟨_, _, _, r, _, h⟩ := h
  cases r with
  | none => cases h
  | some r =>
    inv at h
    obtain ⟨_, _, _, rfl⟩ := h
    exact Effect.setData _ ha

theorem processBurn_effect {a s : Key} {r g : Option Key} (h : processBurn E L a s r g = .ok L')
    (ha : a ∈ K) (hg : ∀ x, g = some x → x ∈ K) (hr : r.getD s ∈ P) : Effect E a K P L L' := by
  unfold processBurn at h
  inv at h
  obtain ⟨_, _, _, _, _, _, L1, hb, res, _, h⟩ := h
  have e1 : Effect E a K P L L1 := by
    unfold burnGroup at hb
    split at hb
    · cases hb; exact Effect.refl
    · split at hb
      · cases hb
      · inv at hb
        obtain ⟨_, _, r, _, hb⟩ := hb
        cases r with
        | none => cases hb
        | some r =>
          inv at hb
          obtain ⟨_, _, _, rfl⟩ := hb
          exact Effect.setData _ (hg _ rfl)
  cases res with
  | none => exact e1.trans (Effect.close h ha hr)
  | some p =>
    inv at h
    obtain ⟨_, _, _, h⟩ := h
    exact e1.trans (Effect.close h ha hr)

theorem optAcc_mem {y z : Key} {Q : List Key} (hz : z ∈ Q) (hy : optAcc E z = some y) : y ∈ Q := by
  unfold optAcc at hy
  split at hy
  · cases hy
  · cases hy; exact hz

/-- Positions of the accounts whose lamports an instruction may change besides those of
`dataKeys`. -/
def Instr.payPositions : Instr → List Nat
  | .close => [1]
  | .burn => [1, 2]
  | .create _ => [5]
  | .allocate _ => [1]
  | .update _ => [4]
  | .write _ => [1]
  | .remove _ => [3]
  | .resize _ => [2]
  | _ => []

/-- The accounts at these positions. -/
def payKeys (i : Instr) (accts : List Key) : List Key :=
  i.payPositions.filterMap fun p => accts[p]?

theorem Effect.mono {K' P' : List Key} (h : Effect E k K P L L') (hK : ∀ x ∈ K, x ∈ K')
    (hP : ∀ x ∈ P, x ∈ P') : Effect E k K' P' L L' where
  data x hx := h.data x fun h => hx (hK x h)
  other x hx hp := h.other x (fun h => hx (hK x h)) fun h => hp (hP x h)
  conserve ks hn h1 h2 ht := h.conserve ks hn (fun x h => h1 x (hK x h)) (fun x h => h2 x (hP x h)) ht
  loss ks hn h1 h2 ht := h.loss ks hn (fun x h => h1 x (hK x h)) (fun x h => h2 x (hP x h)) ht
  newOwner := h.newOwner

/-- The effect of every successful instruction. -/
theorem dispatch_effect {accts : List Key} {i : Instr} (h : dispatch E L i accts = .ok L') :
    ∃ k rest, accts = k :: rest ∧ Effect E k (dataKeys i accts) (payKeys i accts) L L' := by
  cases i with
  | close =>
    obtain ⟨b, r, rest, rfl, hp⟩ := disp_close h
    unfold processClose at hp
    inv at hp
    exact ⟨_, _, rfl, Effect.close hp.2.2.2 (by simp [dataKeys, Instr.dataPositions]) (by simp [payKeys, Instr.payPositions])⟩
  | burn =>
    obtain ⟨a, s, r, g, rest, rfl, hp⟩ := disp_burn h
    refine ⟨_, _, rfl, processBurn_effect hp (by simp [dataKeys, Instr.dataPositions])
      (fun x hx => optAcc_mem (by simp [dataKeys, Instr.dataPositions]) hx) ?_⟩
    unfold optAcc
    split <;> simp [payKeys, Instr.payPositions]
  | create x =>
    obtain ⟨a, au, o, g, ga, p, s, rest, rfl, hp⟩ := disp_create h
    obtain ⟨_, L1, L2, d, types, h1, h2, _, _, _, _, h3⟩ := processCreate_inv hp
    have ha : a ∈ dataKeys (.create x) (a :: au :: o :: g :: ga :: p :: s :: rest) := by
      simp [dataKeys, Instr.dataPositions]
    have hpm : ∀ y, optAcc E p = some y → y ∈ payKeys (.create x) (a :: au :: o :: g :: ga :: p :: s :: rest) :=
      fun y hy => optAcc_mem (by simp [payKeys, Instr.payPositions]) hy
    obtain ⟨e1, o1, _⟩ := createPrepare_eff h1
    obtain ⟨e2, _⟩ := allocateAll_eff h2 o1
    have e3 := ((e1.lift ha hpm).trans (e2.lift ha hpm)).trans
      (Effect.setData (createHeader d o au x) ha)
    refine ⟨_, _, rfl, ?_⟩
    rcases h3 with ⟨_, rfl⟩ | ⟨g', hg', h3⟩
    · exact e3
    · exact e3.trans (processGroup_effect h3 ha
        (optAcc_mem (by simp [dataKeys, Instr.dataPositions]) hg'))
  | approve x =>
    obtain ⟨a, o, d, rest, rfl, hp⟩ := disp_approve h
    unfold processApprove at hp
    inv at hp
    obtain ⟨_, _, _, _, hp⟩ := hp
    refine ⟨_, _, rfl, ?_⟩
    split at hp <;> obtain rfl := pure_ok.mp hp <;>
      exact Effect.setData _ (by simp [dataKeys, Instr.dataPositions])
  | allocate x =>
    obtain ⟨a, p, s, rest, rfl, hp⟩ := disp_allocate h
    exact ⟨_, _, rfl, (processAllocate_eff hp).1.lift (by simp [dataKeys, Instr.dataPositions])
      (fun y hy => optAcc_mem (by simp [payKeys, Instr.payPositions]) hy)⟩
  | lock =>
    obtain ⟨a, s, rest, rfl, hp⟩ := disp_lock h
    unfold processLock at hp
    inv at hp
    obtain ⟨_, _, _, _, rfl⟩ := hp
    exact ⟨_, _, rfl, Effect.setData _ (by simp [dataKeys, Instr.dataPositions])⟩
  | revoke x =>
    obtain ⟨a, s, rest, rfl, hp⟩ := disp_revoke h
    unfold processRevoke at hp
    inv at hp
    obtain ⟨_, _, _, _, hp⟩ := hp
    refine ⟨_, _, rfl, ?_⟩
    have ha : a ∈ dataKeys (.revoke x) (a :: s :: rest) := by simp [dataKeys, Instr.dataPositions]
    cases x with
    | all => obtain rfl := pure_ok.mp hp; exact Effect.setData _ ha
    | some rs =>
      simp only at hp
      split at hp
      · split at hp <;> obtain rfl := pure_ok.mp hp <;> exact Effect.setData _ ha
      · obtain rfl := pure_ok.mp hp; exact Effect.refl
  | transfer =>
    obtain ⟨a, s, r, g, rest, rfl, hp⟩ := disp_transfer h
    unfold processTransfer at hp
    inv at hp
    obtain ⟨_, _, _, _, _, _, _, _, _, hp⟩ := hp
    refine ⟨_, _, rfl, ?_⟩
    split at hp
    · obtain rfl := pure_ok.mp hp; exact Effect.refl
    · inv at hp
      obtain ⟨_, rfl⟩ := hp
      exact Effect.setData _ (by simp [dataKeys, Instr.dataPositions])
  | unlock =>
    obtain ⟨a, s, rest, rfl, hp⟩ := disp_unlock h
    unfold processUnlock at hp
    inv at hp
    obtain ⟨_, _, _, _, rfl⟩ := hp
    exact ⟨_, _, rfl, Effect.setData _ (by simp [dataKeys, Instr.dataPositions])⟩
  | unverify =>
    obtain ⟨a, s, rest, rfl, hp⟩ := disp_unverify h
    exact ⟨_, _, rfl, processSetVerified_effect hp (by simp [dataKeys, Instr.dataPositions])⟩
  | update x =>
    obtain ⟨a, au, b, g, p, s, rest, rfl, hp⟩ := disp_update h
    obtain ⟨⟨L1, h1, h2, h3, e, _⟩, _⟩ := processUpdate_eff hp
    have ha : a ∈ dataKeys (.update x) (a :: au :: b :: g :: p :: s :: rest) := by
      simp [dataKeys, Instr.dataPositions]
    have hb : ∀ y, optAcc E b = some y →
        y ∈ dataKeys (.update x) (a :: au :: b :: g :: p :: s :: rest) :=
      fun y hy => optAcc_mem (by simp [dataKeys, Instr.dataPositions]) hy
    have hlam : ∀ y, (L1 y).lamports = (L y).lamports := by
      intro y
      by_cases hy : y = a
      · subst hy; exact h3.1
      · by_cases hyb : optAcc E b = some y
        · exact (h2 y hyb).2.1.1
        · rw [h1 y hy hyb]
    have e1 : Effect E a (dataKeys (.update x) (a :: au :: b :: g :: p :: s :: rest))
        (payKeys (.update x) (a :: au :: b :: g :: p :: s :: rest)) L L1 := by
      refine ⟨fun y hy => ?_, fun y hy _ => ?_, fun ks _ _ _ _ => total_congr fun y _ => hlam y,
        fun _ _ _ _ _ y _ hl => ?_, fun y hy => ?_⟩
      · rw [h1 y (by rintro rfl; exact hy ha) (fun h => hy (hb y h))]; exact ⟨rfl, rfl⟩
      · exact h1 y (by rintro rfl; exact hy ha) (fun h => hy (hb y h))
      · rw [hlam y] at hl; omega
      · by_cases hyb : optAcc E b = some y
        · exact (h2 y hyb).2.1.2.1
        · rw [h1 y hy hyb]
    exact ⟨_, _, rfl, e1.trans (e.lift ha (fun y hy => optAcc_mem (by simp [payKeys, Instr.payPositions]) hy))⟩
  | verify =>
    obtain ⟨a, s, rest, rfl, hp⟩ := disp_verify h
    exact ⟨_, _, rfl, processSetVerified_effect hp (by simp [dataKeys, Instr.dataPositions])⟩
  | write x =>
    obtain ⟨a, p, s, rest, rfl, hp⟩ := disp_write h
    exact ⟨_, _, rfl, (processWrite_eff hp).1.lift (by simp [dataKeys, Instr.dataPositions])
      (by rintro y ⟨⟩; simp [payKeys, Instr.payPositions])⟩
  | group =>
    obtain ⟨a, g, au, rest, rfl, hp⟩ := disp_group h
    exact ⟨_, _, rfl, processGroup_effect hp (by simp [dataKeys, Instr.dataPositions])
      (by simp [dataKeys, Instr.dataPositions])⟩
  | ungroup =>
    obtain ⟨a, g, au, rest, rfl, hp⟩ := disp_ungroup h
    exact ⟨_, _, rfl, processUngroup_effect hp (by simp [dataKeys, Instr.dataPositions])
      (by simp [dataKeys, Instr.dataPositions])⟩
  | handover =>
    obtain ⟨a, au, na, rest, rfl, hp⟩ := disp_handover h
    unfold processHandover at hp
    inv at hp
    obtain ⟨_, _, _, _, _, _, rfl⟩ := hp
    exact ⟨_, _, rfl, Effect.setData _ (by simp [dataKeys, Instr.dataPositions])⟩
  | remove t =>
    obtain ⟨a, au, g, r, rest, rfl, hp⟩ := disp_remove h
    exact ⟨_, _, rfl, (processRemove_eff hp).1.lift (by simp [dataKeys, Instr.dataPositions])
      (by rintro y ⟨⟩; simp [payKeys, Instr.payPositions])⟩
  | resize s =>
    obtain ⟨a, au, p, y, rest, rfl, hp⟩ := disp_resize h
    exact ⟨_, _, rfl, (processResize_eff hp).1.lift (by simp [dataKeys, Instr.dataPositions])
      (by rintro y ⟨⟩; simp [payKeys, Instr.payPositions])⟩

/-- The effect of a whole execution. -/
theorem execute_effect {accts : List Key} {i : Instr} (h : execute E L accts i = .ok L') :
    ∃ k rest, accts = k :: rest ∧ Effect E k (dataKeys i accts) accts L L' := by
  obtain ⟨k, rest, hk, e⟩ := dispatch_effect (execute_ok h).2.2.1
  have hsub : ∀ (n : Nat) (x : Key), (accts.take 7)[n]? = some x → accts[n]? = some x := by
    intro n x hx
    rw [List.getElem?_take] at hx
    split at hx
    · exact hx
    · cases hx
  rcases accts with _ | ⟨a, as⟩
  · cases hk
  · cases hk
    refine ⟨_, _, rfl, e.mono (fun x hx => ?_) (fun x hx => ?_)⟩
    · obtain ⟨n, hn, hx⟩ := List.mem_filterMap.mp hx
      exact List.mem_filterMap.mpr ⟨n, hn, hsub n x hx⟩
    · obtain ⟨n, hn, hx⟩ := List.mem_filterMap.mp hx
      exact List.mem_of_getElem? (hsub n x hx)

end Verif
