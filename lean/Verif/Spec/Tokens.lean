import Verif.Spec.Bridged
import Verif.Spec.Mints

/-!
# What it takes to bring a token onto the bridge
-/

namespace Verif.Spec

open Verif

/-- Rules of the token metadata program: within the limits of `GoodToken`, the shares of the
creators add up to 100 and the fee is at most 100 %. -/
structure RegularToken (m : TokenMetadata) : Prop where
  good : GoodToken m
  nonFungible : m.nonFungible = true
  shares : ∀ l, m.creators = some l → (l.map fun c => c.2.2.toNat).sum = 100
  fee : m.sellerFee.toNat ≤ 10000

/-- Consent: the update authority has signed or, for a token of a verified collection, the asset
of the collection is on the bridge and handed in. -/
def Consents (E : Env) (C : BridgeConsts) (L : Ledger) (x : BridgeCreateAccts)
    (m : TokenMetadata) : Prop :=
  match m.collection with
  | some (true, key) => ∃ c bump, x.collection = some c ∧
      findPda E (bridgedPrefix ++ key.1) 255 = .ok (c, bump) ∧
      (L c).owner = C.assetId ∧ byteAt (L c).data 0 = 1
  | _ => E.signer m.updateAuthority = true

/-- The accounts of a Create: the token with its metadata, the addresses that belong to it, which
are both unused, and a wallet that pays. -/
structure NewToken (E : Env) (C : BridgeConsts) (L : Ledger) (x : BridgeCreateAccts)
    (m : TokenMetadata) : Prop where
  mint : (L x.mint).owner ∈ C.tokenPrograms
  metadata : (L x.metadata).owner = C.metadataId ∧ C.metadata (L x.metadata).data = some m ∧
    m.mint = x.mint ∧ m.updateAuthority = x.updateAuthority
  vault : (∃ bump, findPda E (vaultPrefix ++ x.mint.1) 255 = .ok (x.vault, bump)) ∧
    L x.vault = ⟨0, [], Key.system⟩
  asset : (∃ bump, findPda E (bridgedPrefix ++ x.mint.1) 255 = .ok (x.asset, bump)) ∧
    L x.asset = ⟨0, [], Key.system⟩
  payer : (L x.payer).owner = Key.system ∧ (L x.payer).data = []
  distinct : x.asset ≠ x.vault ∧ x.payer ≠ x.asset ∧ x.payer ≠ x.vault
  signer : E.signer x.payer = true
  writable : E.writable x.asset = true ∧ E.writable x.vault = true ∧ E.writable x.payer = true
  sys : x.sys = Key.system

/-- The programs are what they are: the asset program is neither the bridge nor the system
program, and none of them is the payer. -/
structure Programs (E : Env) (C : BridgeConsts) (L : Ledger) (x : BridgeCreateAccts) : Prop where
  bridge : E.program ≠ C.assetId
  notSystem : C.assetId ≠ Key.system
  notPayer : x.payer ≠ C.assetId
  whole : ∀ y ∈ [x.updateAuthority, C.assetId, Key.system], Whole C.assetId L y

end Verif.Spec
