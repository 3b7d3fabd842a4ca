import Verif.Model.Cpi

/-!
# The bridge program: moving between a token and its asset

programs/bridge/src. Token programs are not part of the repository. Of a token only its holder
matters here: `Tokens` gives, for the mint of every non-fungible token, the account that holds it.
-/

namespace Verif

/-- The holder of the one token of a mint. -/
abbrev Tokens := Key → Key

/-- Everything the bridge reads and writes. -/
structure Chain where
  ledger : Ledger
  holder : Tokens

/-- What the bridge reads in a Metadata account of the token metadata program: the mint, whether
the token standard is NonFungible or ProgrammableNonFungible, and whether it is the latter; the
rest is used by Create only. A collection is its verified flag and its mint; `sized` says that
there are collection details. -/
structure TokenMetadata where
  mint : Key
  nonFungible : Bool
  programmable : Bool := false
  updateAuthority : Key := Key.default
  name : Bytes := []
  symbol : Bytes := []
  uri : Bytes := []
  sellerFee : UInt16 := 0
  creators : Option (List (Key × Bool × UInt8)) := none
  collection : Option (Bool × Key) := none
  sized : Bool := false
  deriving DecidableEq, Repr

/-- Program ids, and `Metadata::try_from` of the token metadata crate (`none` on error), which is
not part of the repository. -/
structure BridgeConsts where
  assetId : Key
  tokenPrograms : List Key
  metadata : Bytes → Option TokenMetadata
  metadataId : Key := Key.default

/-- `Vault::PREFIX` — state/vault.rs:31. -/
def vaultPrefix : Bytes := [118, 97, 117, 108, 116]

/-- `BRIDGED_ASSET_PREFIX` — state/bridged_asset.rs:4. -/
def bridgedPrefix : Bytes := [97, 115, 115, 101, 116]

/-- `Vault` — state/vault.rs:8-24: discriminator, state, bump, mint, bump of the asset. -/
structure Vault where
  active : Bool
  bump : UInt8
  mint : Key
  assetBump : UInt8
  deriving DecidableEq, Repr

/-- `Vault::load_mut` after the check of the discriminator — bridge.rs:71-80 and
state/vault.rs:8-24. Too few bytes panic; reading a state other than 0 and 1 is undefined. -/
def readVault (d : Bytes) : Except Err Vault :=
  if d = [] ∨ byteAt d 0 ≠ 1 then .error .invalidAccountData
  else if d.length < 36 then .error .panic
  else if byteAt d 1 = 0 then .ok ⟨false, byteAt d 2, keyAt d 3, byteAt d 35⟩
  else if byteAt d 1 = 1 then .ok ⟨true, byteAt d 2, keyAt d 3, byteAt d 35⟩
  else .error .undef

/-- The address of a vault — bridge.rs:82-83. -/
def vaultAddress (E : Env) (mint : Key) (bump : UInt8) : Option Key :=
  E.pda (vaultPrefix ++ mint.1) bump E.program

/-- The address of a bridged asset — state/bridged_asset.rs:6-11. -/
def bridgedAddress (E : Env) (mint : Key) (bump : UInt8) : Option Key :=
  E.pda (bridgedPrefix ++ mint.1) bump E.program

/-- `TransferV1` of one token, with the source as the authority — bridge.rs:149-169. Not
repository code: it needs the source to hold the token and to sign. (The real call checks more.) -/
def tokenTransfer (T : Tokens) (mint src dst : Key) (signed : Bool) : Except Err Tokens :=
  if T mint = src ∧ signed = true then .ok fun m => if m = mint then dst else T m
  else .error .cpi

/-- `TransferCpiBuilder` — bridge.rs:171-176 and
clients/rust/asset/src/generated/instructions/transfer.rs:31-56. -/
def assetTransferMetas (C : BridgeConsts) (asset signer recipient : Key) (group : Option Key) :
    List Meta :=
  [⟨asset, false, true⟩, ⟨signer, true, false⟩, ⟨recipient, false, false⟩,
    ⟨group.getD C.assetId, false, false⟩]

/-- The two transfers — bridge.rs:116-193. The new state of the vault is stored before the calls.
An idle vault receives the token and gives the asset; an active one gives the token and receives
the asset. `vault` signs only where the code passes its seeds. -/
def bridgeSwap (E : Env) (C : BridgeConsts) (S : Chain) (active : Bool)
    (asset vault owner mint : Key) (group : Option Key) : Except Err Chain := do
  let L := S.ledger.setData vault (setByte (S.ledger vault).data 1 (if active then 0 else 1))
  if active then do
    let T ← tokenTransfer S.holder mint vault owner true
    let L' ← invokeAsset E C.assetId [] L (assetTransferMetas C asset owner vault group)
      (encode .transfer)
    return ⟨L', T⟩
  else do
    let T ← tokenTransfer S.holder mint owner vault (E.signer owner)
    let L' ← invokeAsset E C.assetId [vault] L (assetTransferMetas C asset vault owner group)
      (encode .transfer)
    return ⟨L', T⟩

/-- `process_bridge` — processor/bridge.rs:37-194, on the accounts it looks at itself. -/
def processBridge (E : Env) (C : BridgeConsts) (S : Chain)
    (asset vault owner mint metadata : Key) (group : Option Key) : Except Err Chain := do
  require (E.signer owner) .missingRequiredSignature
  require ((S.ledger mint).owner ∈ C.tokenPrograms) .illegalOwner
  require ((S.ledger asset).owner = C.assetId) .illegalOwner
  require ((S.ledger vault).owner = E.program) .illegalOwner
  let v ← readVault (S.ledger vault).data
  require (vaultAddress E mint v.bump = some vault) .invalidSeeds
  require (v.mint = mint) .invalidArgument
  require (bridgedAddress E mint v.assetBump = some asset) .invalidSeeds
  match C.metadata (S.ledger metadata).data with
  | none => .error .invalidAccountData
  | some m => do
    require (m.nonFungible = true) .invalidAccountData
    require (m.mint = mint) .invalidAccountData
    bridgeSwap E C S v.active asset vault owner mint group

/-- The Bridge instruction — processor/mod.rs:35-38, with the account list of
instruction.rs:13-32. -/
def bridgeInstr (E : Env) (C : BridgeConsts) (S : Chain) : List Key → Except Err Chain
  | asset :: vault :: owner :: _token :: mint :: metadata :: _ed :: _tr :: _vt :: _vtr :: _payer ::
    _ap :: _tm :: _sys :: _si :: _spl :: _ata :: _arp :: _ar :: group :: _ =>
    processBridge E C S asset vault owner mint metadata (optAcc E group)
  | _ => .error .notEnoughAccountKeys

end Verif
