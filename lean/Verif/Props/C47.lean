import Verif.Lemmas.Custody
import Verif.Lemmas.Accept
import Verif.Props.C23
import Verif.Props.C35

/-!
# C47 — creating an asset on the bridge
-/

namespace Verif.Props

open Verif Verif.Spec

section
variable {E : Env} {C : BridgeConsts} {L L' : Ledger} {x : BridgeCreateAccts} {m : TokenMetadata}
  {col : Bool} {holder : Tokens}

/-- The data stored for every type of extension. -/
theorem born_lookup {au : Key} {xs es : List Extn} (h : List.Forall₂ (Born au) xs es) (t : ExtType) :
    match lookup t xs, lookup t es with
    | some p, some q => Accepted (some au) t none p q
    | none, none => True
    | _, _ => False := by
  induction h with
  | nil => trivial
  | @cons a b as bs hab _ ih =>
    obtain ⟨h1, h2⟩ := hab
    obtain ⟨s, p⟩ := a
    obtain ⟨s', q⟩ := b
    simp only at h1 h2
    subst h1
    rw [lookup, lookup]
    by_cases ht : s' = t
    · subst ht
      rw [if_pos rfl, if_pos rfl]
      exact h2
    · rw [if_neg ht, if_neg ht]
      exact ih

theorem born_types {au : Key} {xs es : List Extn} (h : List.Forall₂ (Born au) xs es) :
    es.map (·.1) = xs.map (·.1) := by
  induction h with
  | nil => rfl
  | cons hab _ ih => rw [List.map_cons, List.map_cons, hab.1, ih]

/-- The extensions stored for a token mirror it. -/
theorem mirrors_of_born {es : List Extn} {owner : Key} (hg : GoodToken m)
    (h : List.Forall₂ (Born m.updateAuthority) (bridgeExts m col) es) :
    Mirrors m col (newAsset ⟨m.name, .nonFungible, true, none⟩ owner m.updateAuthority none es) := by
  have e := born_lookup h
  obtain ⟨_, _, g3, g4, g5⟩ := hg
  refine ⟨rfl, rfl, rfl, rfl, rfl, rfl, ?_, ?_, ?_, ?_, ?_⟩
  · show es.map (·.1) = _
    rw [born_types h]
    unfold bridgeExts bridgedTypes
    cases m.creators <;> cases col <;> cases m.sized <;> cases m.programmable <;> rfl
  · have hl : lookup .metadata (bridgeExts m col) =
        some (metadataBuilderSet (some m.symbol) none (some m.uri) none) := rfl
    have he := e .metadata
    rw [hl] at he
    cases hq : lookup .metadata es with
    | none => rw [hq] at he; exact he.elim
    | some q =>
      rw [hq] at he
      refine ⟨q, hq, ?_⟩
      have : q = metadataBuilderSet (some m.symbol) none (some m.uri) none := he
      rw [this]
      exact C23_metadata (some m.symbol) none (some m.uri) none g3 (by simp) g4 (by simp)
  · intro l hc
    have hl : lookup .creators (bridgeExts m col) = some (bridgeCreators l) := by
      unfold bridgeExts
      rw [hc]
      rfl
    have he := e .creators
    rw [hl] at he
    cases hq : lookup .creators es with
    | none => rw [hq] at he; exact he.elim
    | some q =>
      rw [hq] at he
      obtain ⟨_, _, _, he, hsum, _⟩ := he
      have hcl : creatorList q = bridgedCreators m l := by
        rw [he]
        unfold bridgeCreators bridgedCreators
        rw [(creatorsBuilder_foldl l (g5 l hc)).1, creatorList_bytes, List.map_map]
        refine List.map_congr_left fun c _ => ?_
        simp only [Function.comp, flagFor, Option.map_none, Option.getD_none, List.find?_nil,
          Option.some.injEq]
        congr 1
        by_cases h : c.1 = m.updateAuthority
        · rw [if_pos h, if_pos h.symm]
        · rw [if_neg h, if_neg (Ne.symm h)]
      refine ⟨q, hq, hcl, ?_⟩
      unfold sumShares at hsum
      rw [hcl] at hsum
      rw [← hsum]
      unfold bridgedCreators
      rw [List.map_map]
      rfl
  · intro q hq
    have he := e .grouping
    change lookup .grouping es = some q at hq
    rw [hq] at he
    have hl : ∀ p, lookup .grouping (bridgeExts m col) = some p → p = zeros 48 := by
      intro p hp
      unfold bridgeExts at hp
      revert hp
      cases m.creators <;> cases col <;> cases m.sized <;> cases m.programmable <;> intro hp <;>
        cases hp <;> rfl
    cases hp : lookup .grouping (bridgeExts m col) with
    | none => rw [hp] at he; exact he.elim
    | some p =>
      rw [hp] at he
      obtain rfl := hl p hp
      obtain ⟨_, _, rfl, _⟩ := he
      decide +kernel
  · intro q hq
    have he := e .royalties
    change lookup .royalties es = some q at hq
    rw [hq] at he
    have hl : ∀ p, lookup .royalties (bridgeExts m col) = some p →
        p = royaltiesBuilderSet m.sellerFee.toNat (buildC .empty) := by
      intro p hp
      unfold bridgeExts at hp
      revert hp
      cases m.creators <;> cases col <;> cases m.sized <;> cases m.programmable <;> intro hp <;>
        cases hp <;> rfl
    cases hp : lookup .royalties (bridgeExts m col) with
    | none => rw [hp] at he; exact he.elim
    | some p =>
      rw [hp] at he
      obtain rfl := hl p hp
      obtain ⟨rfl, _, hfee⟩ := he
      have hlt : m.sellerFee.toNat < 65536 := m.sellerFee.toNat_lt
      refine ⟨C23_royalties _ _ (by omega) (by simp [SelectorsFit]) (by decide), ?_⟩
      unfold royaltiesBuilderSet at hfee
      rw [List.take_left' (length_toLE 8 _), leNat_toLE_of_lt (by omega)] at hfee
      exact hfee

/-- A successful Create of the bridge: the vault is new, idle and holds the new asset, which says
what the token says. -/
theorem C47_created (hne : E.program ≠ C.assetId)
    (hgood : ∀ m, C.metadata (L x.metadata).data = some m → GoodToken m)
    (h0 : (L x.asset).data = [])
    (h : processBridgeCreate E C L x col = .ok L') :
    ∃ m A, C.metadata (L x.metadata).data = some m ∧ m.mint = x.mint ∧ (L x.vault).data = [] ∧
      IsVault E.pda E.program x.vault x.asset x.mint ⟨L', holder⟩ ∧
      vaultActive ⟨L', holder⟩ x.vault = false ∧
      Custody C.assetId x.vault x.asset x.mint ⟨L', holder⟩ ∧
      Stores C.assetId L' x.asset A ∧ A.owner = x.vault ∧ A.delegate = Key.default ∧
      Mirrors m col A := by
  obtain ⟨m, bump, assetBump, L1, L2, ⟨c1, _, _, _, c2, c3⟩, _, _, c4, c5, c6, c7⟩ :=
    bridgeCreate_ok h
  have hg := hgood m c1
  obtain ⟨d1, d2, _, d3⟩ := createVault_ok c4
  obtain ⟨n1, n2, n3, n4, n5⟩ := newVault_bytes x.mint bump assetBump
  generalize hL1 : L1.setData x.vault (newVault x.mint bump assetBump) = L1' at c6
  have w1 : (L1' x.vault).data = newVault x.mint bump assetBump := by
    rw [← hL1, Ledger.setData_same]
  have w2 : (L1' x.vault).owner = E.program := by
    rw [← hL1, Ledger.setData_same]; exact d2
  have hv0 : (L1' x.vault).data ≠ [] := by
    intro e
    rw [w1] at e
    rw [e] at n1
    simp at n1
  have hfit := bridgeExts_fit (col := col) hg
  obtain ⟨k1, k2⟩ := bridgeAllocate_keeps hne w2 hv0 (fun e he => (hfit e he).2) c6
  obtain ⟨he, _⟩ := bridgeCall_ok (bridgeCreate_fits hg) c7
  obtain ⟨u1, u2⟩ := vault_untouched he (k2.trans w2) hne (by rw [k1]; exact hv0)
  have hav : x.asset ≠ x.vault := by
    intro e
    rcases newborn_head (a := x.asset) he (Or.inl ⟨_, rfl⟩) rfl with h1 | h1
    · rw [e, k1] at h1
      exact hv0 h1
    · rw [e, k2, w2] at h1
      exact hne h1
  have a0 : (L1' x.asset).data = [] := by
    rw [← hL1, Ledger.setData_other _ _ hav, (d3 _ hav).1, h0]
  obtain ⟨r1, r2⟩ := bridgeAllocate_writes (es := []) (Or.inl ⟨a0, rfl⟩)
    (by rw [a0]; simp) hfit c6
  rw [List.nil_append] at r1
  obtain ⟨a, au, o, g, ga, p, s, rest, es1, e1, _, _, e2, e3, e4⟩ := create_stores he
    (fun _ => rfl) (es := bridgeExts m col) (by rintro a ⟨⟩; exact r1.unborn)
    (by rintro a ⟨⟩; exact r2) (by intro y hy; simp [asked] at hy)
  simp only [ClientIx.keys, bridgeCreateCall, Call.build, Call.metas, List.map_cons, List.map_nil,
    metaRw, metaRo, metaOpt, List.cons.injEq] at e1
  obtain ⟨rfl, rfl, rfl, rfl, _⟩ := e1
  simp only [optAcc, calleeEnv, if_pos] at e2
  have hnil : createOrder (asked ⟨m.name, .nonFungible, true, none⟩) = [] := rfl
  rw [hnil, List.map_nil, List.append_nil, ← c3] at e3
  rw [← c3] at e2
  have hm := mirrors_of_born (owner := x.vault) hg e3
  have hvd : (L' x.vault).data = newVault x.mint bump assetBump := (u1.trans k1).trans w1
  have hact : vaultActive ⟨L', holder⟩ x.vault = false := by
    unfold vaultActive
    simp only
    rw [hvd, n3]
    rfl
  refine ⟨m, _, c1, c2, d1, ⟨(u2.trans k2).trans w2, by simp only; rw [hvd, n1]; exact Nat.le_refl _,
    by simp only; rw [hvd]; exact n2, by simp only; rw [hvd]; exact Or.inl n3,
    by simp only; rw [hvd]; exact n4, by simp only; rw [hvd, n5]; exact c5⟩, hact,
    ⟨_, e2, ?_, fun _ => rfl, fun _ => rfl, fun h => ?_⟩, e2, rfl, rfl, hm⟩
  · intro p hp
    exfalso
    have := hm.types
    have hmem : ExtType.manager ∈ bridgedTypes m col := by
      rw [← this]
      exact List.mem_map.mpr ⟨_, lookup_mem hp, rfl⟩
    unfold bridgedTypes at hmem
    revert hmem
    cases m.creators <;> cases col <;> cases m.sized <;> cases m.programmable <;> simp
  · rw [hact] at h
    cases h

/-- Who consents to a Create: the update authority of the token has signed, unless the token
belongs to a verified collection that is itself on the bridge. -/
theorem C47_consent (h : processBridgeCreate E C L x col = .ok L') :
    ∃ m, C.metadata (L x.metadata).data = some m ∧ (L x.metadata).owner = C.metadataId ∧
      m.mint = x.mint ∧ m.updateAuthority = x.updateAuthority ∧
      (E.signer m.updateAuthority = true ∨ ∃ key bump c, m.collection = some (true, key) ∧
        bridgedAddress E key bump = some c ∧ (L c).owner = C.assetId ∧
        byteAt (L c).data 0 = 1) := by
  obtain ⟨m, bump, assetBump, L1, L2, ⟨c1, _, c2, _, c3, c4⟩, c5, _⟩ := bridgeCreate_ok h
  refine ⟨m, c1, c2, c3, c4, ?_⟩
  unfold bridgeConsent at c5
  split at c5
  · rename_i key hk
    inv at c5
    obtain ⟨⟨derived, b⟩, h1, c5⟩ := c5
    split at c5
    · cases c5
    · inv at c5
      obtain ⟨h2, h3, h4⟩ := c5
      subst h2
      exact Or.inr ⟨key, b, derived, hk, findPda_ok h1, h3, h4.2⟩
  · rw [c4]
    inv at c5
    exact Or.inl c5

/-- The asset of a token is created once: with a vault in place Create fails. -/
theorem C47_once (h : (L x.vault).data ≠ []) :
    ∃ e, processBridgeCreate E C L x col = .error e := by
  cases hr : processBridgeCreate E C L x col with
  | error e => exact ⟨e, rfl⟩
  | ok L' =>
    obtain ⟨m, bump, assetBump, L1, L2, _, _, _, c4, _⟩ := bridgeCreate_ok hr
    exact absurd (createVault_ok c4).1 h

/-- From its creation on, in every history, the vault holds the asset while it is idle and the
token while it is active. -/
theorem C35_from_creation_partial {S' : Chain} (hne : E.program ≠ C.assetId)
    (hgood : ∀ m, C.metadata (L x.metadata).data = some m → GoodToken m)
    (h0 : (L x.asset).data = [])
    (h : processBridgeCreate E C L x col = .ok L')
    (hl : BridgeLife E.pda E.program C.assetId x.vault x.asset ⟨L', holder⟩ S') :
    IsVault E.pda E.program x.vault x.asset x.mint S' ∧
      Custody C.assetId x.vault x.asset x.mint S' := by
  obtain ⟨m, A, _, _, _, h1, _, h2, _⟩ := C47_created (holder := holder) hne hgood h0 h
  exact C35_custody_partial hne h1 h2 hl

end

/-! ## Concrete cases -/

section Examples

/-- Addresses derived from the bridge program `k 70`: vault `k 20` and asset `k 1` for the token
`k 10`, and asset `k 6` for the collection `k 60`. -/
def bridgePda (seeds : Bytes) (_ : UInt8) (_ : Key) : Option Key :=
  if seeds = vaultPrefix ++ (Ex.k 10).1 then some (Ex.k 20)
  else if seeds = bridgedPrefix ++ (Ex.k 60).1 then some (Ex.k 6)
  else some (Ex.k 1)

/-- A token with two creators, of which only the second is verified. -/
def someToken (collection : Option (Bool × Key)) : TokenMetadata :=
  { mint := Ex.k 10, nonFungible := true, programmable := true, updateAuthority := Ex.k 3,
    name := [65], symbol := [66], uri := [67, 68], sellerFee := 500,
    creators := some [(Ex.k 3, false, 60), (Ex.k 4, true, 40)], collection := collection }

/-- The programs: asset program `k 99`, token program `k 80`, token metadata `k 81`. -/
def tokenConsts (collection : Option (Bool × Key)) : BridgeConsts :=
  { assetId := Ex.prog, tokenPrograms := [Ex.k 80], metadata := fun _ => some (someToken collection),
    metadataId := Ex.k 81 }

/-- A token that is not on the bridge; `spare` lamports are on the address of its vault. -/
def tokenLedger (spare : Nat) : Ledger :=
  Ex.ledger [(Ex.k 10, ⟨1000, [0], Ex.k 80⟩), (Ex.k 11, ⟨1000, [4], Ex.k 81⟩), (Ex.k 5, Ex.wallet),
    (Ex.k 6, Ex.owned (Ex.header 0 0 1 (Ex.k 2) Key.default (Ex.k 3) Key.default 0 [65])),
    (Ex.k 20, ⟨spare, [], Key.system⟩)]

/-- The accounts of a Create. -/
def tokenAccts : List Key :=
  [Ex.k 1, Ex.k 20, Ex.k 10, Ex.k 11, Ex.k 3, Ex.k 6, Ex.k 5, Key.system, Ex.prog]

/-- Create, signed by the payer `k 5` and others. -/
def tokenCreate (spare : Nat) (collection : Option (Bool × Key)) (signers : List Key)
    (isCollection : UInt8) : Except Err Chain :=
  bridgeProcess { Ex.env (tokenLedger spare) (Ex.k 5 :: signers) with
      program := Ex.k 70, pda := bridgePda } (tokenConsts collection)
    ⟨tokenLedger spare, fun _ => Ex.k 2⟩ tokenAccts [1, isCollection]

/-- The vault and the asset of the token. -/
def tokenView (S : Chain) : Bytes × Bytes := ((S.ledger (Ex.k 20)).data, (S.ledger (Ex.k 1)).data)

/-- The vault and the asset that Create yields. -/
example : (tokenCreate 0 none [Ex.k 3] 1).map tokenView =
    .ok ([1, 0, 255] ++ (Ex.k 10).1 ++ [255],
      Ex.header 0 0 1 (Ex.k 20) Key.default (Ex.k 3) Key.default 0 [65] ++
        Ex.blocks 168 [(.metadata, [1, 66, 0, 2, 67, 68, 0]),
          (.creators, (Ex.k 3).1 ++ [1, 60] ++ (Ex.k 4).1 ++ [0, 40]), (.grouping, zeros 48),
          (.royalties, [244, 1, 0, 0, 0, 0, 0, 0, 5, 0, 0, 0, 0, 0, 0, 0])]) := by
  decide +kernel

/-- Without the update authority it takes a verified collection on the bridge. -/
example : (tokenCreate 0 none [] 0).isOk = false ∧
    (tokenCreate 0 (some (false, Ex.k 60)) [] 0).isOk = false ∧
    (tokenCreate 0 (some (true, Ex.k 60)) [] 0).isOk = true ∧
    (tokenCreate 0 (some (true, Ex.k 61)) [Ex.k 3] 0).isOk = false := by
  decide +kernel

/-- The hypotheses can be met. -/
example (collection : Option (Bool × Key)) (d : Bytes) (m : TokenMetadata)
    (h : (tokenConsts collection).metadata d = some m) : GoodToken m := by
  cases h
  refine ⟨by simp [someToken], show validUtf8 [65] = true by decide, by simp [someToken],
    by simp [someToken], ?_⟩
  rintro l ⟨⟩
  decide
example : (tokenLedger 0 (Ex.k 1)).data = [] ∧ Ex.k 70 ≠ (tokenConsts none).assetId := by
  decide +kernel

/-- The flags of the creators are not taken over: a verified creator of the token is not verified
on the asset, while the update authority, who is not verified on the token, is verified on the
asset, without a signature when the collection is on the bridge. -/
theorem C47_flags_false : ∃ S' : Chain,
    tokenCreate 0 (some (true, Ex.k 60)) [] 0 = .ok S' ∧
    (someToken none).creators = some [(Ex.k 3, false, 60), (Ex.k 4, true, 40)] ∧
    ∃ p, slice (S'.ledger (Ex.k 1)).data 208 68 = p ∧
      creatorList p = [⟨Ex.k 3, 1, 60⟩, ⟨Ex.k 4, 0, 40⟩] := by
  cases h : tokenCreate 0 (some (true, Ex.k 60)) [] 0 with
  | error e =>
    have : (tokenCreate 0 (some (true, Ex.k 60)) [] 0).isOk = true := by decide +kernel
    rw [h] at this
    cases this
  | ok S' =>
    have hs : (tokenCreate 0 (some (true, Ex.k 60)) [] 0).map
        (fun S' => creatorList (slice (S'.ledger (Ex.k 1)).data 208 68)) =
        .ok [⟨Ex.k 3, 1, 60⟩, ⟨Ex.k 4, 0, 40⟩] := by decide +kernel
    rw [h] at hs
    exact ⟨S', rfl, rfl, _, rfl, Except.ok.inj hs⟩

end Examples

end Verif.Props
