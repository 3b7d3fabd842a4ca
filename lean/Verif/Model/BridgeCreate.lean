import Verif.Model.Bridge
import Verif.Model.Proxy
import Verif.Model.Calls

/-!
# The bridge program: creating the asset of a token

programs/bridge/src/processor/create.rs. The errors of the bridge and a few program errors are
not distinguished.
-/

namespace Verif

/-- The accounts of Create — instruction.rs:40-49, without the asset program. -/
structure BridgeCreateAccts where
  asset : Key
  vault : Key
  mint : Key
  metadata : Key
  updateAuthority : Key
  collection : Option Key
  payer : Key
  sys : Key

/-- The collection of a token, when it is verified, must be on the bridge; otherwise the update
authority must sign — create.rs:75-126. -/
def bridgeConsent (E : Env) (C : BridgeConsts) (L : Ledger) (x : BridgeCreateAccts)
    (m : TokenMetadata) : Except Err Unit :=
  match m.collection with
  | some (true, key) => do
    let (derived, _) ← findPda E (bridgedPrefix ++ key.1) 255
    match x.collection with
    | none => .error .notEnoughAccountKeys
    | some c => do
      require (derived = c) .invalidSeeds
      require ((L c).owner = C.assetId) .illegalOwner
      require ((L c).data ≠ [] ∧ byteAt (L c).data 0 = 1) .invalidAccountData
  | _ => require (E.signer x.updateAuthority = true) .missingRequiredSignature

/-- Creating the account of the vault, which the bridge signs for — create.rs:144-164. -/
def createVault (E : Env) (L : Ledger) (payer vault : Key) : Except Err Ledger :=
  if (L vault).data = [] then
    systemCreate { E with signer := fun k => E.signer k || k = vault } L payer vault (E.rent 36) 36
      E.program
  else .error .invalidAccountData

/-- The content of a new vault — create.rs:168-187: kind, state Idle, bump, mint, bump of the
asset. -/
def newVault (mint : Key) (bump assetBump : UInt8) : Bytes := [1, 0, bump] ++ mint.1 ++ [assetBump]

/-- `CreatorsBuilder` with all creators of the token — create.rs:217-221. -/
def bridgeCreators (l : List (Key × Bool × UInt8)) : Bytes :=
  (l.foldl (fun b c => b.add c.1 c.2.1 c.2.2) ({} : CreatorsBuilder)).data

/-- The extensions of the asset, in the order of their allocation — create.rs:198-268:
Metadata; Creators if the token has any; Grouping for a collection; and for a programmable
collection Royalties. -/
def bridgeExts (m : TokenMetadata) (isCollection : Bool) : List (ExtType × Bytes) :=
  [(.metadata, metadataBuilderSet (some m.symbol) none (some m.uri) none)] ++
  (match m.creators with
    | none => []
    | some l => [(.creators, bridgeCreators l)]) ++
  (if isCollection || m.sized then
    [(.grouping, zeros 48)] ++
      (if m.programmable
        then [(.royalties, royaltiesBuilderSet m.sellerFee.toNat (buildC .empty))] else [])
    else [])

/-- One call of the asset program, signed by the address of the asset — create.rs:204-213 and the
like. The call also needs the account of the asset program, which is left out. -/
def bridgeCall (E : Env) (C : BridgeConsts) (asset : Key) (L : Ledger) (c : Call) :
    Except Err Ledger :=
  invokeAsset E C.assetId [asset] L (c.build C.assetId).metas (c.build C.assetId).data

/-- `AllocateCpiBuilder` for every extension — create.rs:204-267. -/
def bridgeAllocate (E : Env) (C : BridgeConsts) (x : BridgeCreateAccts) :
    Ledger → List (ExtType × Bytes) → Except Err Ledger
  | L, [] => .ok L
  | L, e :: es => do
    let L1 ← bridgeCall E C x.asset L
      (.allocate x.asset (some x.payer) (some x.sys) (inlineExt e.1 e.2))
    bridgeAllocate E C x L1 es

/-- The Create that ends it; the update authority need not have signed. Standard and mutability are
the defaults of `CreateCpiBuilder` — create.rs:273-281 and
clients/rust/asset/src/generated/instructions/create.rs:630-645. -/
def bridgeCreateCall (x : BridgeCreateAccts) (m : TokenMetadata) : Call :=
  .create x.asset (x.updateAuthority, false) x.vault none none (some x.payer) (some x.sys)
    ⟨m.name, .nonFungible, true, none⟩

/-- The accounts and what the token metadata says about them — create.rs:41-73. -/
def bridgeCreateChecks (C : BridgeConsts) (L : Ledger) (x : BridgeCreateAccts) :
    Except Err TokenMetadata := do
  require ((L x.mint).owner ∈ C.tokenPrograms) .illegalOwner
  require ((L x.metadata).owner = C.metadataId) .illegalOwner
  match C.metadata (L x.metadata).data with
  | none => .error .invalidAccountData
  | some m => do
    require (m.nonFungible = true) .invalidAccountData
    require (m.mint = x.mint) .invalidAccountData
    require (m.updateAuthority = x.updateAuthority) .invalidAccountData
    return m

/-- `process_create` — processor/create.rs:34-282. -/
def processBridgeCreate (E : Env) (C : BridgeConsts) (L : Ledger) (x : BridgeCreateAccts)
    (isCollection : Bool) : Except Err Ledger := do
  let m ← bridgeCreateChecks C L x
  bridgeConsent E C L x m
  let (vault, bump) ← findPda E (vaultPrefix ++ x.mint.1) 255
  require (vault = x.vault) .invalidSeeds
  let L1 ← createVault E L x.payer x.vault
  let (asset, assetBump) ← findPda E (bridgedPrefix ++ x.mint.1) 255
  require (asset = x.asset) .invalidSeeds
  let L2 ← bridgeAllocate E C x (L1.setData x.vault (newVault x.mint bump assetBump))
    (bridgeExts m isCollection)
  bridgeCall E C x.asset L2 (bridgeCreateCall x m)

/-- `Instruction::try_from_slice` and the account lists of the bridge — processor/mod.rs:23-45 and
instruction.rs:12-50. -/
def bridgeProcess (E : Env) (C : BridgeConsts) (S : Chain) (accts : List Key) (data : Bytes) :
    Except Err Chain :=
  match data with
  | [0] => bridgeInstr E C S accts
  | [1, b] =>
    if b = 0 ∨ b = 1 then
      match accts with
      | asset :: vault :: mint :: metadata :: ua :: coll :: payer :: sys :: _ap :: _ => do
        let L' ← processBridgeCreate E C S.ledger
          ⟨asset, vault, mint, metadata, ua, optAcc E coll, payer, sys⟩ (b = 1)
        return ⟨L', S.holder⟩
      | _ => .error .notEnoughAccountKeys
    else .error .invalidInstructionData
  | _ => .error .invalidInstructionData

end Verif
