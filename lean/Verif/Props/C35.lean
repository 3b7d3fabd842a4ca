import Verif.Lemmas.Custody
import Verif.Lemmas.Check
import Verif.Examples

/-!
# C35 — Custody of bridged tokens

A vault of the bridge always holds the token or the asset: the asset while it is idle, the token
while it is active, in every history. "Exactly when" and "the holder's signature" are false: see
`C35_both_false` and `C35_delegate_false`.
-/

namespace Verif.Props

open Verif Verif.Spec

section
variable {E : Env} {C : BridgeConsts} {S S' : Chain} {L L' : Ledger} {accts : List Key}
  {derive : Bytes → UInt8 → Key → Option Key} {program assetId vault asset mint : Key}

/-- A Bridge instruction: the user has signed, token and asset change places, and the state of the
vault is toggled. Bridging back takes the owner of the asset or its transfer delegate. -/
theorem C35_toggle (hne : E.program ≠ C.assetId) (h : bridgeInstr E C S accts = .ok S') :
    ∃ asset vault owner token mint rest, accts = asset :: vault :: owner :: token :: mint :: rest ∧
      E.signer owner = true ∧ vaultActive S' vault = !vaultActive S vault ∧
      (vaultActive S vault = false → S.holder mint = owner ∧ S'.holder mint = vault) ∧
      (vaultActive S vault = true → S.holder mint = vault ∧ S'.holder mint = owner) ∧
      ∀ A, Stores C.assetId S.ledger asset A → ∃ A', Stores C.assetId S'.ledger asset A' ∧
        (vaultActive S vault = false →
          (A.owner = vault ∨ A.Delegated vault .transfer) ∧ A'.owner = owner) ∧
        (vaultActive S vault = true →
          (A.owner = owner ∨ A.Delegated owner .transfer) ∧ A'.owner = vault) := by
  obtain ⟨asset, vault, owner, token, mint, rest, group, act, rfl, h1, h2, h3, h4, _, _, h7, h8⟩ :=
    bridge_ok h
  obtain ⟨F, s, r, g, f1, _, he, ft, ff⟩ := swap_ok h8
  have hav : asset ≠ vault := by
    rintro rfl
    exact hne (h3.symm.trans h2)
  obtain ⟨v1, _⟩ := vault_after he h3 (by rw [f1]; exact hne) h4
  have hact : vaultActive S vault = act := by
    unfold vaultActive
    rw [h7]
    cases act <;> rfl
  refine ⟨asset, vault, owner, token, mint, rest, rfl, h1, ?_, ?_, ?_, ?_⟩
  · rw [hact]
    unfold vaultActive
    rw [v1, (vault_bytes h4).2.2.1]
    cases act <;> rfl
  · intro hf
    obtain ⟨_, _, g3, g4⟩ := ff (hact.symm.trans hf)
    exact ⟨g3, by rw [g4]; simp⟩
  · intro hf
    obtain ⟨_, _, g3, g4⟩ := ft (hact.symm.trans hf)
    exact ⟨g3, by rw [g4]; simp⟩
  · intro A hA
    rw [← f1] at hA
    obtain ⟨A', a1, _, a2, a3, _⟩ := transfer_moves (stores_flipped hA hav) he
    rw [f1] at a1
    refine ⟨A', a1, fun hf => ?_, fun hf => ?_⟩
    · obtain ⟨rfl, rfl, _⟩ := ff (hact.symm.trans hf)
      exact ⟨a3, a2⟩
    · obtain ⟨rfl, rfl, _⟩ := ft (hact.symm.trans hf)
      exact ⟨a3, a2⟩

/-- Vault and asset are those of the mint: the vault is an account of the bridge with the tag 1 at the address
derived from the mint with the bump it stores, it stores this mint, and the asset is an account of
the asset program at the address derived from the mint with the second bump. -/
theorem C35_addresses (h : bridgeInstr E C S accts = .ok S') :
    ∃ asset vault owner token mint rest, accts = asset :: vault :: owner :: token :: mint :: rest ∧
      (S.ledger vault).owner = E.program ∧ 36 ≤ (S.ledger vault).data.length ∧
      byteAt (S.ledger vault).data 0 = 1 ∧
      (byteAt (S.ledger vault).data 1 = 0 ∨ byteAt (S.ledger vault).data 1 = 1) ∧
      (S.ledger asset).owner = C.assetId ∧ (S.ledger mint).owner ∈ C.tokenPrograms ∧
      keyAt (S.ledger vault).data 3 = mint ∧
      E.pda ("vault".toList.map (fun c => UInt8.ofNat c.toNat) ++ mint.1)
        (byteAt (S.ledger vault).data 2) E.program = some vault ∧
      E.pda ("asset".toList.map (fun c => UInt8.ofNat c.toNat) ++ mint.1)
        (byteAt (S.ledger vault).data 35) E.program = some asset := by
  unfold bridgeInstr at h
  split at h
  · rename_i asset vault owner token mint metadata _ _ _ _ _ _ _ _ _ _ _ _ _ group rest
    refine ⟨asset, vault, owner, token, mint, _, rfl, ?_⟩
    unfold processBridge at h
    inv at h
    obtain ⟨_, h1, h2, h3, v, h4, h5, h6, h7, _⟩ := h
    have hv : 36 ≤ (S.ledger vault).data.length ∧ byteAt (S.ledger vault).data 0 = 1 ∧
        (byteAt (S.ledger vault).data 1 = 0 ∨ byteAt (S.ledger vault).data 1 = 1) ∧
        v.bump = byteAt (S.ledger vault).data 2 ∧ v.mint = keyAt (S.ledger vault).data 3 ∧
        v.assetBump = byteAt (S.ledger vault).data 35 := by
      unfold readVault at h4
      split at h4
      · cases h4
      · rename_i hd
        split at h4
        · cases h4
        · rename_i hl
          have h0 : byteAt (S.ledger vault).data 0 = 1 := by
            by_cases h : byteAt (S.ledger vault).data 0 = 1
            · exact h
            · exact absurd (Or.inr h) hd
          split at h4
          · rename_i hs
            cases h4
            exact ⟨by omega, h0, Or.inl hs, rfl, rfl, rfl⟩
          · split at h4
            · rename_i hs
              cases h4
              exact ⟨by omega, h0, Or.inr hs, rfl, rfl, rfl⟩
            · cases h4
    obtain ⟨g1, g2, g3, g4, g5, g6⟩ := hv
    rw [g4] at h5
    rw [g5] at h6
    rw [g6] at h7
    exact ⟨h3, g1, g2, g3, h2, h1, h6, h5, h7⟩
  · cases h

/-- In every history the vault holds the asset while it is idle and the token while it is
active. -/
theorem C35_custody_partial (hne : program ≠ assetId)
    (hv : IsVault derive program vault asset mint S) (hc : Custody assetId vault asset mint S)
    (h : BridgeLife derive program assetId vault asset S S') :
    IsVault derive program vault asset mint S' ∧ Custody assetId vault asset mint S' := by
  induction h with
  | refl => exact ⟨hv, hc⟩
  | step _ hs ih => exact custody_step hne ih.1 ih.2 hs

end

/-! ## Concrete cases -/

/-- The bridge program `k 70`, the token program `k 80`, and one non-fungible token `k 10`. -/
def bridgeConsts : BridgeConsts := 
  { assetId := Ex.prog, tokenPrograms := [Ex.k 80],
    metadata := fun _ => some { mint := Ex.k 10, nonFungible := true } }

theorem bridgeConsts_good (d : Bytes) (m : TokenMetadata) (h : bridgeConsts.metadata d = some m) :
    GoodToken m := by
  cases h
  exact ⟨by decide, by decide, by decide, by decide, by intro l h; cases h⟩

/-- Vault `k 20` in the given state, and asset `k 1`. -/
def bridgeLedger (active : UInt8) (owner delegate : Key) (roles : UInt8) : Ledger :=
  Ex.ledger [(Ex.k 1, Ex.owned (Ex.header 0 0 1 owner Key.default (Ex.k 3) delegate roles [65])),
    (Ex.k 10, ⟨1000, [0], Ex.k 80⟩), (Ex.k 11, ⟨1000, [4], Ex.k 81⟩),
    (Ex.k 20, ⟨1000, [1, active, 20] ++ (Ex.k 10).1 ++ [1], Ex.k 70⟩),
    (Ex.k 2, Ex.wallet), (Ex.k 4, Ex.wallet)]

/-- The token `k 10` is held by `h`. -/
def bridgeChain (active : UInt8) (owner delegate : Key) (roles : UInt8) (h : Key) : Chain :=
  ⟨bridgeLedger active owner delegate roles, fun m => if m = Ex.k 10 then h else Key.default⟩

/-- Bridge, by `who`. -/
def bridgeBy (S : Chain) (who : Key) : Except Err Chain :=
  bridgeInstr { Ex.env S.ledger [who] with program := Ex.k 70 } bridgeConsts S
    ([Ex.k 1, Ex.k 20, who, Ex.k 12, Ex.k 10, Ex.k 11] ++ List.replicate 14 (Ex.k 70))

/-- The holder of the token, the owner of the asset, and the state of the vault. -/
def bridgeView (S : Chain) : Key × Key × Bool :=
  (S.holder (Ex.k 10), keyAt (S.ledger (Ex.k 1)).data 4, vaultActive S (Ex.k 20))

/-- Bridging out: the token goes into the vault, the asset to the user. -/
example : (bridgeBy (bridgeChain 0 (Ex.k 20) Key.default 0 (Ex.k 2)) (Ex.k 2)).map bridgeView =
    .ok (Ex.k 20, Ex.k 2, true) := by decide +kernel

/-- And back. -/
example : (bridgeBy (bridgeChain 1 (Ex.k 2) (Ex.k 4) 7 (Ex.k 20)) (Ex.k 2)).map bridgeView =
    .ok (Ex.k 2, Ex.k 20, false) := by decide +kernel

/-- Somebody else can do neither. -/
example : (bridgeBy (bridgeChain 0 (Ex.k 20) Key.default 0 (Ex.k 2)) (Ex.k 4)).map bridgeView =
    .error .cpi ∧
    (bridgeBy (bridgeChain 1 (Ex.k 2) Key.default 0 (Ex.k 20)) (Ex.k 4)).map bridgeView =
      .error (.asset .invalidTransferAuthority) := by decide +kernel

/-- A vault at another address than the derived one is refused. -/
example :
    let S := bridgeChain 0 (Ex.k 20) Key.default 0 (Ex.k 2)
    let pda : Bytes → UInt8 → Key → Option Key := fun s b _ =>
      some (if s.take 5 = "vault".toList.map (fun c => UInt8.ofNat c.toNat) then Ex.k 21 else Ex.k b)
    (bridgeInstr { Ex.env S.ledger [Ex.k 2] with program := Ex.k 70, pda := pda } bridgeConsts S
      ([Ex.k 1, Ex.k 20, Ex.k 2, Ex.k 12, Ex.k 10, Ex.k 11] ++ List.replicate 14 (Ex.k 70))).map
        bridgeView = .error .invalidSeeds := by decide +kernel

/-- The asset in `bridgeLedger`. -/
def bridgedAsset (owner delegate : Key) (roles : UInt8) : Asset :=
  Asset.of (assetAt (bridgeLedger 0 owner delegate roles) (Ex.k 1)) []

theorem bridge_start :
    IsVault (fun _ b _ => some (Ex.k b)) (Ex.k 70) (Ex.k 20) (Ex.k 1) (Ex.k 10)
      (bridgeChain 0 (Ex.k 20) Key.default 0 (Ex.k 2)) ∧
    Custody Ex.prog (Ex.k 20) (Ex.k 1) (Ex.k 10)
      (bridgeChain 0 (Ex.k 20) Key.default 0 (Ex.k 2)) := by
  refine ⟨⟨by decide +kernel, by decide +kernel, by decide +kernel, by decide +kernel,
    by decide +kernel, by decide +kernel⟩, bridgedAsset (Ex.k 20) Key.default 0,
    checkStores_sound (by decide +kernel), (by intro p h; cases h), by decide +kernel,
    by decide +kernel, by decide +kernel⟩

/-- The hypotheses of `C35_custody_partial` are met, with a history in which the token is bridged
and bridged back. -/
example : ∃ S', BridgeLife (fun _ b _ => some (Ex.k b)) (Ex.k 70) Ex.prog (Ex.k 20) (Ex.k 1)
    (bridgeChain 0 (Ex.k 20) Key.default 0 (Ex.k 2)) S' ∧
    bridgeView S' = (Ex.k 2, Ex.k 20, false) := by
  have h : ((bridgeBy (bridgeChain 0 (Ex.k 20) Key.default 0 (Ex.k 2)) (Ex.k 2)).bind
      fun S => bridgeBy S (Ex.k 2)).map bridgeView = .ok (Ex.k 2, Ex.k 20, false) := by
    decide +kernel
  cases h1 : bridgeBy (bridgeChain 0 (Ex.k 20) Key.default 0 (Ex.k 2)) (Ex.k 2) with
  | error e =>
    rw [h1] at h
    cases h
  | ok S1 =>
    rw [h1] at h
    cases h2 : bridgeBy S1 (Ex.k 2) with
    | error e =>
      simp only [Except.bind] at h
      rw [h2] at h
      cases h
    | ok S2 =>
      simp only [Except.bind] at h
      rw [h2] at h
      exact ⟨S2, .step (.step (.refl _)
        (.bridge _ _ _ [0] rfl rfl rfl (by decide +kernel) bridgeConsts_good h1))
        (.bridge _ _ _ [0] rfl rfl rfl (show _ = false by
          show List.contains [Ex.k 2] (Ex.k 20) = false
          decide +kernel) bridgeConsts_good h2), Except.ok.inj h⟩

/-- "Exactly one of the two" is false: a user who sends the token straight to the idle vault, as
any token can be sent, leaves token and asset with the vault. -/
theorem C35_both_false : ∃ derive program assetId vault asset mint S S',
    IsVault derive program vault asset mint S ∧ Custody assetId vault asset mint S ∧
    S.holder mint ≠ vault ∧ BridgeLife derive program assetId vault asset S S' ∧
    S'.holder mint = vault ∧ ∃ A, Stores assetId S'.ledger asset A ∧ A.owner = vault := by
  refine ⟨_, _, _, _, _, _, _, bridgeChain 0 (Ex.k 20) Key.default 0 (Ex.k 20), bridge_start.1,
    bridge_start.2, by decide +kernel, .step (.refl _) (.other ?_ rfl rfl ?_), by decide +kernel,
    bridgedAsset (Ex.k 20) Key.default 0, checkStores_sound (by decide +kernel), by decide +kernel⟩
  · exact fun x => ⟨fun h => ⟨h, rfl⟩, fun h h' => absurd h' h⟩
  · intro m hm
    simp only [bridgeChain] at hm ⊢
    split
    · rfl
    · rename_i h
      rw [if_neg h] at hm
      exact hm

/-- In that state nothing can be bridged: both are stuck. -/
theorem C35_stuck {E : Env} {C : BridgeConsts} {S : Chain} {asset vault owner token mint : Key}
    {rest : List Key} (hne : E.program ≠ C.assetId) (hv : E.signer vault = false)
    (hi : vaultActive S vault = false) (ht : S.holder mint = vault) :
    ∃ e, bridgeInstr E C S (asset :: vault :: owner :: token :: mint :: rest) = .error e := by
  cases h : bridgeInstr E C S (asset :: vault :: owner :: token :: mint :: rest) with
  | error e => exact ⟨e, rfl⟩
  | ok S' =>
    obtain ⟨a, v, o, t, m, r, he, hs, _, hh, _⟩ := C35_toggle hne h
    cases he
    rw [← (hh hi).1, ht, hv] at hs
    cases hs

/-- "With the signature of the holder" is false: the transfer delegate of the asset bridges it back
without its owner, and receives the token. -/
theorem C35_delegate_false : ∃ E C S accts S' A asset vault mint stranger,
    bridgeInstr E C S accts = .ok S' ∧ Stores C.assetId S.ledger asset A ∧
    E.signer A.owner = false ∧ stranger ≠ A.owner ∧ S.holder mint = vault ∧
    S'.holder mint = stranger := by
  have h : (bridgeBy (bridgeChain 1 (Ex.k 2) (Ex.k 4) 7 (Ex.k 20)) (Ex.k 4)).map bridgeView =
      .ok (Ex.k 4, Ex.k 20, false) := by decide +kernel
  cases h1 : bridgeBy (bridgeChain 1 (Ex.k 2) (Ex.k 4) 7 (Ex.k 20)) (Ex.k 4) with
  | error e =>
    rw [h1] at h
    cases h
  | ok S1 =>
    rw [h1] at h
    exact ⟨_, _, _, _, S1, bridgedAsset (Ex.k 2) (Ex.k 4) 7, Ex.k 1, Ex.k 20, Ex.k 10, Ex.k 4, h1,
      checkStores_sound (by decide +kernel), by decide +kernel, by decide +kernel,
      by decide +kernel, (Prod.mk.inj (Except.ok.inj h)).1⟩

end Verif.Props
