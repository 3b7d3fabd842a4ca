import Verif.Lemmas.Bridge
import Verif.Lemmas.Mint
import Verif.Spec.Bridged

/-!
# Creating an asset on the bridge
-/

namespace Verif

open Verif.Spec Verif.Props

section
variable {E : Env} {C : BridgeConsts} {L L' : Ledger} {x : BridgeCreateAccts} {m : TokenMetadata}
  {col : Bool}

/-- A successful call is a successful instruction, with the privileges of the caller. -/
theorem bridgeCall_ok {c : Call} {pda : Key} (hok : InstrOk (instrOf c))
    (h : bridgeCall E C pda L c = .ok L') :
    execute (calleeEnv E C.assetId L (c.build C.assetId).metas) L (c.build C.assetId).keys
        (instrOf c) = .ok L' ∧
      ∀ m ∈ (c.build C.assetId).metas, (m.signer = true → E.signer m.key = true ∨ m.key ∈ [pda]) ∧
        (m.writable = true → E.writable m.key = true) := by
  unfold bridgeCall at h
  rw [Call.data_eq] at h
  exact invokeAsset_ok hok h

/-- Allocate and Create work on new accounts and on accounts of the program. -/
theorem newborn_head {F : Env} {accts : List Key} {i : Instr} {a : Key}
    (h : execute F L accts i = .ok L') (hi : (∃ x, i = .create x) ∨ ∃ x, i = .allocate x)
    (hh : accts.head? = some a) : (L a).data = [] ∨ (L a).owner = F.program := by
  rcases hi with ⟨x, rfl⟩ | ⟨x, rfl⟩
  · obtain ⟨b, au, o, rest, es, rfl, _, hp, _⟩ := C15_create h
    obtain rfl : b = a := by simpa using hh
    rcases hp with h | h
    · exact Or.inl h.1
    · exact Or.inr h.1
  · obtain ⟨b, p, s, rest, rfl, hp⟩ := exec_allocate h
    obtain rfl : b = a := by simpa using hh
    rcases (processAllocate_eff hp).2.2.2 with h | h
    · exact Or.inl h.1
    · exact Or.inr h.1

/-- What a found address is. -/
theorem findPda_ok {seeds : Bytes} {k : Key} {b : UInt8} :
    ∀ {n : Nat}, findPda E seeds n = .ok (k, b) → E.pda seeds b E.program = some k
  | 0, h => by cases h
  | n + 1, h => by
    unfold findPda at h
    split at h
    · rename_i hp
      cases h
      exact hp
    · exact findPda_ok h

/-- The parts of a successful Create. -/
theorem bridgeCreate_ok (h : processBridgeCreate E C L x col = .ok L') :
    ∃ m bump assetBump L1 L2,
      (C.metadata (L x.metadata).data = some m ∧ (L x.mint).owner ∈ C.tokenPrograms ∧
        (L x.metadata).owner = C.metadataId ∧ m.nonFungible = true ∧ m.mint = x.mint ∧
        m.updateAuthority = x.updateAuthority) ∧
      bridgeConsent E C L x m = .ok () ∧ vaultAddress E x.mint bump = some x.vault ∧
      createVault E L x.payer x.vault = .ok L1 ∧
      bridgedAddress E x.mint assetBump = some x.asset ∧
      bridgeAllocate E C x (L1.setData x.vault (newVault x.mint bump assetBump))
        (bridgeExts m col) = .ok L2 ∧
      bridgeCall E C x.asset L2 (bridgeCreateCall x m) = .ok L' := by
  unfold processBridgeCreate at h
  inv at h
  obtain ⟨m, h1, h2, ⟨vault, bump⟩, h3, h4, L1, h5, ⟨asset, assetBump⟩, h6, h7, L2, h8, h9⟩ := h
  subst h4 h7
  unfold bridgeCreateChecks at h1
  inv at h1
  obtain ⟨a1, a2, h1⟩ := h1
  split at h1
  · cases h1
  · rename_i hm
    inv at h1
    obtain ⟨a3, a4, a5, h1⟩ := h1
    cases h1
    exact ⟨_, bump, assetBump, L1, L2, ⟨hm, a1, a2, a3, a4, a5⟩, h2, findPda_ok h3, h5,
      findPda_ok h6, h8, h9⟩

/-- Creating a vault: the account was unused, and only it changes. -/
theorem createVault_ok {payer vault : Key} (h : createVault E L payer vault = .ok L') :
    (L vault).data = [] ∧ (L' vault).owner = E.program ∧ (L vault).lamports = 0 ∧
      ∀ k, k ≠ vault → (L' k).data = (L k).data ∧ (L' k).owner = (L k).owner := by
  unfold createVault at h
  split at h
  · rename_i h0
    unfold systemCreate at h
    split at h
    · rename_i hc
      cases h
      obtain ⟨_, _, _, _, _, _, _, _, _, _, c, _⟩ := hc
      refine ⟨h0, by simp [Ledger.set], c, ?_⟩
      intro k hk
      simp only [Ledger.set, if_neg hk]
      exact setLamports_data _ _ _
    · cases h
  · cases h

theorem bridgeAllocate_fits {e : Extn} (he : e.2.length ≤ 10485760) :
    InstrOk (instrOf (.allocate x.asset (some x.payer) (some x.sys) (inlineExt e.1 e.2))) := by
  rintro p ⟨⟩
  unfold Short
  omega

theorem bridgeCreate_fits (hg : GoodToken m) : InstrOk (instrOf (bridgeCreateCall x m)) := by
  refine ⟨⟨?_, hg.2.1⟩, by intro a h; cases h⟩
  unfold Short
  have := hg.1
  simp only
  omega

theorem bridgeExts_fit (hg : GoodToken m) :
    ∀ e ∈ bridgeExts m col, e.1 ≠ .none ∧ e.2.length ≤ 10485760 := by
  obtain ⟨_, _, g3, g4, g5⟩ := hg
  intro e he
  unfold bridgeExts at he
  rw [List.mem_append, List.mem_append] at he
  rcases he with (he | he) | he
  · obtain rfl := List.mem_singleton.mp he
    refine ⟨(by intro h; cases h), ?_⟩
    simp [metadataBuilderSet, writeOptStr, writeStr]
    omega
  · cases hc : m.creators with
    | none => rw [hc] at he; simp at he
    | some l =>
      rw [hc] at he
      obtain rfl := List.mem_singleton.mp he
      refine ⟨(by intro h; cases h), ?_⟩
      have hl := g5 l hc
      simp only [bridgeCreators]
      rw [(creatorsBuilder_foldl l hl).1, length_creatorsBytes, List.length_map]
      omega
  · split at he
    · rcases List.mem_append.mp he with he | he
      · obtain rfl := List.mem_singleton.mp he
        exact ⟨by decide, by simp [zeros]⟩
      · split at he
        · obtain rfl := List.mem_singleton.mp he
          refine ⟨(by intro h; cases h), ?_⟩
          have : (buildC .empty).length = 8 := by decide
          simp [royaltiesBuilderSet, length_toLE, this]
        · simp at he
    · simp at he

/-- What the Allocates write. -/
theorem bridgeAllocate_writes :
    ∀ {xs : List Extn} {L : Ledger} {es : List Extn}, Ready (L x.asset).data es →
      (L x.asset).data.length ≤ 10485760 → (∀ e ∈ xs, e.1 ≠ .none ∧ e.2.length ≤ 10485760) →
      bridgeAllocate E C x L xs = .ok L' →
      Ready (L' x.asset).data (es ++ xs) ∧ (L' x.asset).data.length ≤ 10485760
  | [], L, es, hr, hm, _, h => by
    cases h
    exact ⟨by simpa using hr, hm⟩
  | e :: xs, L, es, hr, hm, hx, h => by
    unfold bridgeAllocate at h
    inv at h
    obtain ⟨L1, h1, h2⟩ := h
    obtain ⟨ht, hl⟩ := hx e (by simp)
    obtain ⟨he, _⟩ := bridgeCall_ok (bridgeAllocate_fits (x := x) hl) h1
    have hm1 := execute_maxLen (k := x.asset) he
      (by simp [ClientIx.keys, Call.build, Call.metas, metaRw]) hm
    have hn : (UInt32.ofNat e.2.length).toNat = e.2.length :=
      UInt32.toNat_ofNat_of_lt (by simp [UInt32.size]; omega)
    obtain ⟨base, b1, b2, b3⟩ := hr.open
    have hfit : Fits (inlineExt e.1 e.2) := by
      refine ⟨by simp only [inlineExt]; omega, ?_⟩
      rintro p ⟨⟩
      omega
    have q := C31_whole (a := x.asset) he rfl b1 hm hfit ht
      (by simp only [given, inlineExt, Option.getD_some]; exact hn.symm)
    simp only [given, inlineExt, Option.getD_some] at q
    have := bridgeAllocate_writes (xs := xs) (L := L1) (es := es ++ [e])
      (by rw [q]; exact finished_ready b2 b3 ht (by rw [← q]; exact hm1)) hm1
      (fun e h => hx e (by simp [h])) h2
    simpa using this

/-- The Allocates leave accounts of the bridge alone. -/
theorem bridgeAllocate_keeps {v : Key} (hne : E.program ≠ C.assetId) :
    ∀ {xs : List Extn} {L : Ledger}, (L v).owner = E.program → (L v).data ≠ [] →
      (∀ e ∈ xs, e.2.length ≤ 10485760) → bridgeAllocate E C x L xs = .ok L' →
      (L' v).data = (L v).data ∧ (L' v).owner = (L v).owner
  | [], L, _, _, _, h => by cases h; exact ⟨rfl, rfl⟩
  | e :: xs, L, ho, hd, hx, h => by
    unfold bridgeAllocate at h
    inv at h
    obtain ⟨L1, h1, h2⟩ := h
    obtain ⟨he, _⟩ := bridgeCall_ok (bridgeAllocate_fits (x := x) (hx e (by simp))) h1
    obtain ⟨g1, g2⟩ := vault_untouched he ho hne hd
    obtain ⟨k1, k2⟩ := bridgeAllocate_keeps hne (xs := xs) (g2.trans ho) (by rw [g1]; exact hd)
      (fun e h => hx e (by simp [h])) h2
    exact ⟨k1.trans g1, k2.trans g2⟩

/-- The content of a new vault. -/
theorem newVault_bytes (mint : Key) (bump assetBump : UInt8) :
    (newVault mint bump assetBump).length = 36 ∧ byteAt (newVault mint bump assetBump) 0 = 1 ∧
      byteAt (newVault mint bump assetBump) 1 = 0 ∧ keyAt (newVault mint bump assetBump) 3 = mint ∧
      byteAt (newVault mint bump assetBump) 35 = assetBump := by
  have hk := mint.2
  unfold newVault
  refine ⟨by simp [hk], rfl, rfl, ?_, ?_⟩
  · unfold keyAt
    rw [slice_mid [1, 0, bump] mint.1 [assetBump] 3 32 rfl hk.symm]
    exact ofBytes_key mint
  · unfold byteAt
    rw [List.getD_eq_getElem?_getD, List.getElem?_append_right (by simp [hk])]
    simp [hk]

end

end Verif
