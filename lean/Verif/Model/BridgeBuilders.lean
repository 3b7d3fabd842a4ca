import Verif.Model.BridgeClient
import Verif.Model.Builders

/-!
# Builders and cross-program calls of the Rust client of the bridge

clients/rust/bridge/src/generated/instructions/{bridge,create}.rs.
-/

namespace Verif

/-- The accounts of the two instructions — bridge.rs:12-53, create.rs:12-31. -/
inductive BridgeSlot
  | asset | vault | owner | token | mint | metadata | masterEdition | tokenRecord | vaultToken
  | vaultTokenRecord | payer | assetProgram | metadataProgram | sys | sysvar | splToken | splAta
  | rulesProgram | rules | group | updateAuthority | collection
  deriving DecidableEq, Repr

/-- A call of a setter — bridge.rs:255-433 and 861-1061, create.rs:153-239 and 490-601. The flag is that
of `update_authority(key, as_signer)`; only optional accounts can be set to `None`. -/
inductive BridgeSetting
  | account (s : BridgeSlot) (o : Option Key) (asSigner : Bool)
  | isCollection (b : Bool)
  | remaining (ms : List Meta)

/-- The fields of a builder — bridge.rs:227-249, create.rs:135-147. -/
structure BridgeFields where
  acct : BridgeSlot → Option (Key × Bool) := fun _ => none
  isCollection : Option Bool := none
  remaining : List Meta := []

/-- The setters. -/
def BridgeFields.set (f : BridgeFields) : BridgeSetting → BridgeFields
  | .account s o b => { f with acct := fun t => if t = s then o.map (·, b) else f.acct t }
  | .isCollection b => { f with isCollection := some b }
  | .remaining ms => { f with remaining := f.remaining ++ ms }

/-- An account without default. -/
def BridgeFields.need (f : BridgeFields) (s : BridgeSlot) : Except Err Key :=
  expectSet ((f.acct s).map (·.1))

/-- A program: its well-known address stands for it in a transaction (`cpi = false`). -/
def BridgeFields.program (f : BridgeFields) (cpi : Bool) (s : BridgeSlot) (k : Key) : Except Err Key :=
  match (f.acct s).map (·.1) with
  | some k' => .ok k'
  | none => if cpi then .error .panic else .ok k

/-- The accounts of Bridge — bridge.rs:435-474 and 1063-1144. -/
def BridgeFields.bridge (T : TokenLibs) (f : BridgeFields) (cpi : Bool) : Except Err BridgeCall := do
  let asset ← f.need .asset
  let vault ← f.need .vault
  let owner ← f.need .owner
  let token ← f.need .token
  let mint ← f.need .mint
  let metadata ← f.need .metadata
  let masterEdition ← f.need .masterEdition
  let vaultToken ← f.need .vaultToken
  let payer ← f.need .payer
  let assetProgram ← f.program cpi .assetProgram T.assetProgram
  let metadataProgram ← f.program cpi .metadataProgram T.metadataProgram
  let sys ← f.program cpi .sys Key.system
  let sysvar ← f.program cpi .sysvar T.sysvar
  let splToken ← f.program cpi .splToken T.splToken
  let splAta ← f.program cpi .splAta T.splAta
  return .bridge ⟨asset, vault, owner, token, mint, metadata, masterEdition,
    (f.acct .tokenRecord).map (·.1), vaultToken, (f.acct .vaultTokenRecord).map (·.1), payer,
    assetProgram, metadataProgram, sys, sysvar, splToken, splAta, (f.acct .rulesProgram).map (·.1),
    (f.acct .rules).map (·.1), (f.acct .group).map (·.1)⟩

/-- The accounts and the argument of Create — create.rs:241-266 and 603-650. -/
def BridgeFields.create (T : TokenLibs) (f : BridgeFields) (cpi : Bool) : Except Err BridgeCall := do
  let asset ← f.need .asset
  let vault ← f.need .vault
  let mint ← f.need .mint
  let metadata ← f.need .metadata
  let updateAuthority ← expectSet (f.acct .updateAuthority)
  let payer ← f.need .payer
  let sys ← f.program cpi .sys Key.system
  let assetProgram ← f.program cpi .assetProgram T.assetProgram
  let isCollection ← expectSet f.isCollection
  return .create ⟨asset, vault, mint, metadata, updateAuthority.1, (f.acct .collection).map (·.1), payer,
    sys⟩ updateAuthority.2 assetProgram isCollection

/-- One of the two (`create`). -/
def BridgeFields.call (T : TokenLibs) (f : BridgeFields) (create cpi : Bool) : Except Err BridgeCall :=
  if create then f.create T cpi else f.bridge T cpi

/-- Setters and `instruction()`. -/
def bridgeBuilder (T : TokenLibs) (program : Key) (create : Bool) (ss : List BridgeSetting) :
    Except Err ClientIx := do
  let f := ss.foldl BridgeFields.set {}
  let c ← f.call T create false
  return ⟨c.metas program ++ f.remaining, c.data⟩

/-- The accounts handed over with a call — bridge.rs:758-792, create.rs:429-444. -/
def BridgeCall.infos : BridgeCall → List Key
  | .bridge x =>
    [x.asset, x.vault, x.owner, x.token, x.mint, x.metadata, x.masterEdition] ++ x.tokenRecord.toList ++
      [x.vaultToken] ++ x.vaultTokenRecord.toList ++
      [x.payer, x.assetProgram, x.metadataProgram, x.sys, x.sysvar, x.splToken, x.splAta] ++
      x.rulesProgram.toList ++ x.rules.toList ++ x.group.toList
  | .create x _ ap _ =>
    [x.asset, x.vault, x.mint, x.metadata, x.updateAuthority] ++ x.collection.toList ++
      [x.payer, x.sys, ap]

/-- Setters and `invoke_signed(..)`: what is passed to `invoke_signed` of the runtime — bridge.rs:619-792,
create.rs:360-444; the flags of added accounts as in bridge.rs:747-748 and 1036. -/
def bridgeCpiBuilder (T : TokenLibs) (program programInfo : Key) (create : Bool)
    (ss : List BridgeSetting) : Except Err (ClientIx × List Key) := do
  let f := ss.foldl BridgeFields.set {}
  let c ← f.call T create true
  let rs := f.remaining.map storeRemaining
  return (⟨c.metas program ++ rs.map readRemaining, c.data⟩,
    programInfo :: c.infos ++ rs.map (·.1))

end Verif
