import Verif.Model.BridgeCreate
import Verif.Model.JsCalls

/-!
# The clients of the bridge program

clients/rust/bridge and clients/js/bridge: the builders of the two instructions, and the account of a
vault as the clients read it.
-/

namespace Verif

/-! ## Rust -/

/-- The accounts of Bridge — clients/rust/bridge/src/generated/instructions/bridge.rs:12-53. -/
structure BridgeAccts where
  asset : Key
  vault : Key
  owner : Key
  token : Key
  mint : Key
  metadata : Key
  masterEdition : Key
  tokenRecord : Option Key
  vaultToken : Key
  vaultTokenRecord : Option Key
  payer : Key
  assetProgram : Key
  metadataProgram : Key
  sys : Key
  sysvar : Key
  splToken : Key
  splAta : Key
  rulesProgram : Option Key
  rules : Option Key
  group : Option Key

/-- A request: Bridge, or Create with the flag that says whether the update authority signs, the
asset program and the argument. -/
inductive BridgeCall
  | bridge (x : BridgeAccts)
  | create (x : BridgeCreateAccts) (signs : Bool) (assetProgram : Key) (isCollection : Bool)

/-- The account metas — bridge.rs:64-174, create.rs:46-82. -/
def BridgeCall.metas (program : Key) : BridgeCall → List Meta
  | .bridge x =>
    [metaRw x.asset false, metaRw x.vault false, metaRo x.owner true, metaRw x.token false,
      metaRo x.mint false, metaRw x.metadata false, metaRo x.masterEdition false,
      metaOpt program (metaRw · false) x.tokenRecord, metaRw x.vaultToken false,
      metaOpt program (metaRw · false) x.vaultTokenRecord, metaRw x.payer true,
      metaRo x.assetProgram false, metaRo x.metadataProgram false, metaRo x.sys false,
      metaRo x.sysvar false, metaRo x.splToken false, metaRo x.splAta false,
      metaOpt program (metaRo · false) x.rulesProgram, metaOpt program (metaRo · false) x.rules,
      metaOpt program (metaRo · false) x.group]
  | .create x signs ap _ =>
    [metaRw x.asset false, metaRw x.vault false, metaRo x.mint false, metaRo x.metadata false,
      metaRo x.updateAuthority signs, metaOpt program (metaRo · false) x.collection,
      metaRw x.payer true, metaRo x.sys false, metaRo ap false]

/-- The data — bridge.rs:175 and 192, create.rs:86-88 and 105. -/
def BridgeCall.data : BridgeCall → Bytes
  | .bridge _ => [0]
  | .create _ _ _ b => [1] ++ encBool b

/-- `instruction(args)`. -/
def BridgeCall.build (program : Key) (c : BridgeCall) : ClientIx := ⟨c.metas program, c.data⟩

/-- `Vault::from_bytes` — clients/rust/bridge/src/generated/accounts/vault.rs:15-58: fields in order,
bytes that follow are ignored. The discriminator is read but not compared; `none` is an error. -/
def rustReadVault (d : Bytes) : Option (UInt8 × Vault) :=
  match readU8 d with
  | none => none
  | some (disc, d) =>
    match readU8 d with
    | none => none
    | some (state, d) =>
      match readU8 d with
      | none => none
      | some (bump, d) =>
        if d.length < 33 ∨ 1 < disc ∨ 1 < state then none
        else some (disc, ⟨state = 1, bump, keyAt d 0, byteAt d 32⟩)

/-! ## JavaScript -/

/-- Addresses that other libraries derive: `findMetadataPda`, `findMasterEditionPda`,
`findTokenRecordPda` and `findAssociatedTokenPda`; and the well-known program ids in the order
asset program, token metadata, system, instructions sysvar, token, associated token, rules. -/
structure TokenLibs where
  metadata : Key → Key
  edition : Key → Key
  record : Key → Key → Key
  ata : Key → Key → Key
  assetProgram : Key
  metadataProgram : Key
  sysvar : Key
  splToken : Key
  splAta : Key
  rulesProgram : Key

/-- `context.eddsa.findPda(programId, seeds)` for the bridge program: `find_program_address`. It
throws when there is no address. -/
def jsFindPda (E : Env) (seeds : Bytes) : Except Err Key := do
  let (k, _) ← findPda E seeds 255
  return k

/-- `findBridgeAssetPda` — clients/js/bridge/src/pda.ts:7-22. -/
def jsBridgeAsset (E : Env) (mint : Key) : Except Err Key := jsFindPda E (bridgedPrefix ++ mint.1)

/-- `findVaultPda` — generated/accounts/vault.ts:156-171. -/
def jsVault (E : Env) (mint : Key) : Except Err Key := jsFindPda E (vaultPrefix ++ mint.1)

/-- `BridgeInstructionAccounts` and the argument `tokenStandard` (whether it is
ProgrammableNonFungible) — generated/instructions/bridge.ts:43-84 and 104-110. -/
structure JsBridge where
  asset : Option Key := none
  vault : Option Key := none
  owner : Key
  token : Option Key := none
  mint : Key
  metadata : Option Key := none
  masterEdition : Option Key := none
  tokenRecord : Option Key := none
  vaultToken : Option Key := none
  vaultTokenRecord : Option Key := none
  payer : Option Key := none
  assetProgram : Option Key := none
  metadataProgram : Option Key := none
  sys : Option Key := none
  sysvar : Option Key := none
  splToken : Option Key := none
  splAta : Option Key := none
  rulesProgram : Option Key := none
  rules : Option Key := none
  group : Option Key := none
  programmable : Bool := false

/-- `CreateInstructionAccounts` and the argument — generated/instructions/create.ts:35-54 and 62.
The update authority is an address or a signer. -/
structure JsBridgeCreate where
  asset : Option Key := none
  vault : Option Key := none
  mint : Key
  metadata : Option Key := none
  updateAuthority : Option (Key × Bool) := none
  collection : Option Key := none
  payer : Option Key := none
  sys : Option Key := none
  assetProgram : Option Key := none
  isCollection : Bool

/-- A value or a default that may throw. -/
def orElse (o : Option Key) (f : Except Err Key) : Except Err Key :=
  match o with
  | some k => .ok k
  | none => f

/-- `bridge` — generated/instructions/bridge.ts:113-361. The resolver of the asset always finds a
mint (hooked/resolvers.ts:5-21). -/
def jsBridge (E : Env) (T : TokenLibs) (ctx : JsContext) (x : JsBridge) : Except Err ClientIx := do
  let asset ← orElse x.asset (jsBridgeAsset E x.mint)
  let vault ← orElse x.vault (jsVault E x.mint)
  let token := x.token.getD (T.ata x.mint x.owner)
  let metadata := x.metadata.getD (T.metadata x.mint)
  let edition := x.masterEdition.getD (T.edition x.mint)
  let record := if x.programmable then some (x.tokenRecord.getD (T.record x.mint token))
    else x.tokenRecord
  let vaultToken := x.vaultToken.getD (T.ata x.mint vault)
  let vaultRecord :=
    if x.programmable then some (x.vaultTokenRecord.getD (T.record x.mint vaultToken))
    else x.vaultTokenRecord
  let rulesProgram := if x.programmable then some (x.rulesProgram.getD T.rulesProgram)
    else x.rulesProgram
  return ⟨jsMetas E.program
    [⟨jsAddress asset, true⟩, ⟨jsAddress vault, true⟩, ⟨jsSigner x.owner, false⟩,
      ⟨jsAddress token, true⟩, ⟨jsAddress x.mint, false⟩, ⟨jsAddress metadata, true⟩,
      ⟨jsAddress edition, false⟩, ⟨record.bind jsAddress, true⟩, ⟨jsAddress vaultToken, true⟩,
      ⟨vaultRecord.bind jsAddress, true⟩, ⟨jsSigner (x.payer.getD ctx.payer), true⟩,
      ⟨jsAddress (x.assetProgram.getD T.assetProgram), false⟩,
      ⟨jsAddress (x.metadataProgram.getD T.metadataProgram), false⟩,
      ⟨jsAddress (x.sys.getD Key.system), false⟩, ⟨jsAddress (x.sysvar.getD T.sysvar), false⟩,
      ⟨jsAddress (x.splToken.getD T.splToken), false⟩,
      ⟨jsAddress (x.splAta.getD T.splAta), false⟩, ⟨rulesProgram.bind jsAddress, false⟩,
      ⟨x.rules.bind jsAddress, false⟩, ⟨x.group.bind jsAddress, false⟩], [0]⟩

/-- `create` — generated/instructions/create.ts:84-210. -/
def jsBridgeCreate (E : Env) (T : TokenLibs) (ctx : JsContext) (x : JsBridgeCreate) :
    Except Err ClientIx := do
  let asset ← orElse x.asset (jsBridgeAsset E x.mint)
  let vault ← orElse x.vault (jsVault E x.mint)
  return ⟨jsMetas E.program
    [⟨jsAddress asset, true⟩, ⟨jsAddress vault, true⟩, ⟨jsAddress x.mint, false⟩,
      ⟨jsAddress (x.metadata.getD (T.metadata x.mint)), false⟩,
      ⟨some (x.updateAuthority.getD (ctx.identity, true)), false⟩,
      ⟨x.collection.bind jsAddress, false⟩, ⟨jsSigner (x.payer.getD ctx.payer), true⟩,
      ⟨jsAddress (x.sys.getD Key.system), false⟩,
      ⟨jsAddress (x.assetProgram.getD T.assetProgram), false⟩],
    [1] ++ (if x.isCollection then [1] else [0])⟩

/-- `getVaultAccountDataSerializer().deserialize` — generated/accounts/vault.ts:56-73: an enumerator
out of range and missing bytes throw. The discriminator is not compared. -/
def jsReadVault (d : Bytes) : Except Err Vault :=
  if d.length < 36 ∨ 1 < byteAt d 0 ∨ 1 < byteAt d 1 then .error .panic
  else .ok ⟨byteAt d 1 = 1, byteAt d 2, keyAt d 3, byteAt d 35⟩

end Verif
