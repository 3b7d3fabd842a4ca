import Verif.Model.InterfaceCalls

/-!
# Builders and cross-program calls of the Rust clients

clients/rust/asset/src/generated/instructions/*.rs and the same files of the interface crate
(programs/asset/interface/src/generated/instructions/*.rs): besides the structs of Model/Calls.lean, every
instruction has a builder with a setter for each field (`XBuilder`), a struct for calling it from
another program (`XCpi`) and a builder for that (`XCpiBuilder`). Line numbers are those of the asset client.
-/

namespace Verif

/-- The instructions. -/
inductive Kind
  | close | burn | create | approve | allocate | lock | revoke | transfer | unlock | unverify
  | update | verify | write | group | ungroup | handover | remove | resize
  deriving DecidableEq, Repr

/-- The instruction that is called. -/
def Call.kind : Call → Kind
  | .close .. => .close
  | .burn .. => .burn
  | .create .. => .create
  | .approve .. => .approve
  | .allocate .. => .allocate
  | .lock .. => .lock
  | .revoke .. => .revoke
  | .transfer .. => .transfer
  | .unlock .. => .unlock
  | .unverify .. => .unverify
  | .update .. => .update
  | .verify .. => .verify
  | .write .. => .write
  | .group .. => .group
  | .ungroup .. => .ungroup
  | .handover .. => .handover
  | .remove .. => .remove
  | .resize .. => .resize

/-- A call of a setter — create.rs:163-260 and 498-623, and likewise in the other files. Accounts that
are required in one instruction and optional in another have setters of different types, here always
with an option; likewise the flag of an account that may or may not sign, which most instructions do
not have. The last one stands for `add_remaining_account` and `add_remaining_accounts`: accounts, and
whether they sign and are writable. -/
inductive Setting
  | asset (k : Key)
  | buffer (o : Option Key)
  | recipient (o : Option Key)
  | signer (k : Key)
  | owner (k : Key)
  | delegate (k : Key)
  | authority (k : Key) (asSigner : Bool)
  | newAuthority (k : Key)
  | creator (k : Key)
  | group (o : Option Key)
  | groupAuthority (o : Option Key)
  | payer (o : Option Key) (asSigner : Bool)
  | systemProgram (o : Option Key)
  | extension (x : ExtInput)
  | delegateInput (x : DelegateInput)
  | name (b : Bytes)
  | standard (s : Standard)
  | isMutable (b : Bool)
  | extensions (l : List ExtInput)
  | extensionType (t : ExtType)
  | strategy (s : Strategy)
  | overwrite (b : Bool)
  | bytes (b : Bytes)
  | remaining (ms : List Meta)

/-- The fields of a builder, those of all instructions together — create.rs:143-157, and likewise in the
other files. -/
structure Fields where
  asset : Option Key := none
  buffer : Option Key := none
  recipient : Option Key := none
  signer : Option Key := none
  owner : Option Key := none
  delegate : Option Key := none
  authority : Option (Key × Bool) := none
  newAuthority : Option Key := none
  creator : Option Key := none
  group : Option Key := none
  groupAuthority : Option Key := none
  payer : Option (Key × Bool) := none
  systemProgram : Option Key := none
  extension : Option ExtInput := none
  delegateInput : Option DelegateInput := none
  name : Option Bytes := none
  standard : Option Standard := none
  isMutable : Option Bool := none
  extensions : Option (List ExtInput) := none
  extensionType : Option ExtType := none
  strategy : Option Strategy := none
  overwrite : Option Bool := none
  bytes : Option Bytes := none
  remaining : List Meta := []

/-- The setters — create.rs:163-260 and 498-623, and likewise in the other files. -/
def Fields.set (f : Fields) : Setting → Fields
  | .asset k => { f with asset := some k }
  | .buffer o => { f with buffer := o }
  | .recipient o => { f with recipient := o }
  | .signer k => { f with signer := some k }
  | .owner k => { f with owner := some k }
  | .delegate k => { f with delegate := some k }
  | .authority k s => { f with authority := some (k, s) }
  | .newAuthority k => { f with newAuthority := some k }
  | .creator k => { f with creator := some k }
  | .group o => { f with group := o }
  | .groupAuthority o => { f with groupAuthority := o }
  | .payer o s => { f with payer := o.map (·, s) }
  | .systemProgram o => { f with systemProgram := o }
  | .extension x => { f with extension := some x }
  | .delegateInput x => { f with delegateInput := some x }
  | .name b => { f with name := some b }
  | .standard s => { f with standard := some s }
  | .isMutable b => { f with isMutable := some b }
  | .extensions l => { f with extensions := some l }
  | .extensionType t => { f with extensionType := some t }
  | .strategy s => { f with strategy := some s }
  | .overwrite b => { f with overwrite := some b }
  | .bytes b => { f with bytes := some b }
  | .remaining ms => { f with remaining := f.remaining ++ ms }

/-- `expect("… is not set")`. -/
def expectSet {α : Type} : Option α → Except Err α
  | some a => .ok a
  | none => .error .panic

/-- The system program of Write — write.rs:155-157; it has no default in write.rs:397-400. -/
def Fields.writeSystem (f : Fields) (cpi : Bool) : Except Err Key :=
  if cpi then expectSet f.systemProgram else .ok (f.systemProgram.getD Key.system)

/-- Accounts and arguments of the instruction — close.rs:113-120, burn.rs:152-161, create.rs:261-279,
approve.rs:144-158, allocate.rs:161-172, lock.rs:112-119, revoke.rs:131-144, transfer.rs:147-156,
unlock.rs:112-119, unverify.rs:112-119, update.rs:232-248, verify.rs:112-119, write.rs:151-165,
group.rs:125-133, ungroup.rs:125-133, handover.rs:126-134, remove.rs:166-181, resize.rs:170-182. The
builders for calls from a program differ in one field (`cpi`). -/
def Fields.call (f : Fields) (cpi : Bool) : Kind → Except Err Call
  | .close => do
    let buffer ← expectSet f.buffer
    let recipient ← expectSet f.recipient
    return .close buffer recipient
  | .burn => do
    let asset ← expectSet f.asset
    let signer ← expectSet f.signer
    return .burn asset signer f.recipient f.group
  | .create => do
    let asset ← expectSet f.asset
    let authority ← expectSet f.authority
    let owner ← expectSet f.owner
    let name ← expectSet f.name
    return .create asset authority owner f.group f.groupAuthority (f.payer.map (·.1)) f.systemProgram
      ⟨name, f.standard.getD .nonFungible, f.isMutable.getD true, f.extensions⟩
  | .approve => do
    let asset ← expectSet f.asset
    let owner ← expectSet f.owner
    let delegate ← expectSet f.delegate
    let x ← expectSet f.delegateInput
    return .approve asset owner delegate x
  | .allocate => do
    let asset ← expectSet f.asset
    let x ← expectSet f.extension
    return .allocate asset (f.payer.map (·.1)) f.systemProgram x
  | .lock => do
    let asset ← expectSet f.asset
    let signer ← expectSet f.signer
    return .lock asset signer
  | .revoke => do
    let asset ← expectSet f.asset
    let signer ← expectSet f.signer
    let x ← expectSet f.delegateInput
    return .revoke asset signer x
  | .transfer => do
    let asset ← expectSet f.asset
    let signer ← expectSet f.signer
    let recipient ← expectSet f.recipient
    return .transfer asset signer recipient f.group
  | .unlock => do
    let asset ← expectSet f.asset
    let signer ← expectSet f.signer
    return .unlock asset signer
  | .unverify => do
    let asset ← expectSet f.asset
    let creator ← expectSet f.creator
    return .unverify asset creator
  | .update => do
    let asset ← expectSet f.asset
    let authority ← expectSet f.authority
    return .update asset authority.1 f.buffer f.group (f.payer.map (·.1)) f.systemProgram
      ⟨f.name, f.isMutable, f.extension⟩
  | .verify => do
    let asset ← expectSet f.asset
    let creator ← expectSet f.creator
    return .verify asset creator
  | .write => do
    let asset ← expectSet f.asset
    let payer ← expectSet f.payer
    let sys ← f.writeSystem cpi
    let overwrite ← expectSet f.overwrite
    let bytes ← expectSet f.bytes
    return .write asset payer.1 sys ⟨overwrite, bytes⟩
  | .group => do
    let asset ← expectSet f.asset
    let group ← expectSet f.group
    let authority ← expectSet f.authority
    return .group asset group authority.1
  | .ungroup => do
    let asset ← expectSet f.asset
    let group ← expectSet f.group
    let authority ← expectSet f.authority
    return .ungroup asset group authority.1
  | .handover => do
    let asset ← expectSet f.asset
    let authority ← expectSet f.authority
    let newAuthority ← expectSet f.newAuthority
    return .handover asset authority.1 newAuthority
  | .remove => do
    let asset ← expectSet f.asset
    let authority ← expectSet f.authority
    let recipient ← expectSet f.recipient
    let t ← expectSet f.extensionType
    return .remove asset authority.1 f.group recipient t
  | .resize => do
    let asset ← expectSet f.asset
    let authority ← expectSet f.authority
    let payer ← expectSet f.payer
    let s ← expectSet f.strategy
    return .resize asset authority.1 payer f.systemProgram s

/-- The metas of the two crates: those of the asset client or those of the interface. -/
def Call.metasOf (interface : Bool) (program : Key) (c : Call) : List Meta :=
  if interface then c.interfaceMetas program else c.metas program

/-- `XBuilder::new()`, setters, `instruction()`. -/
def builderInstruction (interface : Bool) (program : Key) (k : Kind) (ss : List Setting) :
    Except Err ClientIx := do
  let f := ss.foldl Fields.set {}
  let c ← f.call false k
  return ⟨c.metasOf interface program ++ f.remaining, [c.discriminator] ++ c.args⟩

/-! ## From another program -/

/-- A remaining account of a call: the account and two flags. -/
abbrev CpiRemaining := Key × Bool × Bool

/-- `add_remaining_account(account, is_writable, is_signer)` of a builder stores the flags in this
order — create.rs:595-605, and likewise in the other files. -/
def storeRemaining (m : Meta) : CpiRemaining := (m.key, m.writable, m.signer)

/-- `invoke_signed_with_remaining_accounts` reads them — create.rs:428-434, and likewise in the other
files. -/
def readRemaining (r : CpiRemaining) : Meta := ⟨r.1, r.2.1, r.2.2⟩

/-- The accounts handed over with a call — close.rs:208-215, burn.rs:280-293, create.rs:444-464,
approve.rs:261-269, allocate.rs:288-300, lock.rs:207-214, revoke.rs:238-245, transfer.rs:268-279,
unlock.rs:207-214, unverify.rs:207-214, update.rs:404-423, verify.rs:207-214, write.rs:268-276,
group.rs:230-238, ungroup.rs:230-238, handover.rs:231-239, remove.rs:299-310, resize.rs:301-312: those
that are given. -/
def Call.infos : Call → List Key
  | .close buffer recipient => [buffer, recipient]
  | .burn asset signer recipient g => [asset, signer] ++ recipient.toList ++ g.toList
  | .create asset authority owner g groupAuthority payer sys _ =>
    [asset, authority.1, owner] ++ g.toList ++ groupAuthority.toList ++ payer.toList ++ sys.toList
  | .approve asset owner delegate _ => [asset, owner, delegate]
  | .allocate asset payer sys _ => [asset] ++ payer.toList ++ sys.toList
  | .lock asset signer => [asset, signer]
  | .revoke asset signer _ => [asset, signer]
  | .transfer asset signer recipient g => [asset, signer, recipient] ++ g.toList
  | .unlock asset signer => [asset, signer]
  | .unverify asset creator => [asset, creator]
  | .update asset authority buffer g payer sys _ =>
    [asset, authority] ++ buffer.toList ++ g.toList ++ payer.toList ++ sys.toList
  | .verify asset creator => [asset, creator]
  | .write asset payer sys _ => [asset, payer, sys]
  | .group asset g authority => [asset, g, authority]
  | .ungroup asset g authority => [asset, g, authority]
  | .handover asset authority newAuthority => [asset, authority, newAuthority]
  | .remove asset authority g recipient _ => [asset, authority] ++ g.toList ++ [recipient]
  | .resize asset authority payer sys _ => [asset, authority, payer.1] ++ sys.toList

/-- What `XCpi::invoke_signed_with_remaining_accounts` passes to `invoke_signed`: the instruction and the
accounts; `programInfo` is the account `__program` — create.rs:364-464, and likewise in the other files.
The metas there are those of `instruction_with_remaining_accounts` (compared by a script). -/
def Call.cpi (interface : Bool) (program programInfo : Key) (rs : List CpiRemaining) (c : Call) :
    ClientIx × List Key :=
  (⟨c.metasOf interface program ++ rs.map readRemaining, [c.discriminator] ++ c.args⟩,
    programInfo :: c.infos ++ rs.map (·.1))

/-- `XCpiBuilder::new(programInfo)`, setters, `invoke_signed(..)`: what is passed to `invoke_signed` —
close.rs:300-315, burn.rs:399-418, create.rs:630-666, approve.rs:365-390, allocate.rs:401-426,
lock.rs:296-311, revoke.rs:333-356, transfer.rs:384-403, unlock.rs:296-311, unverify.rs:296-311,
update.rs:574-603, verify.rs:296-311, write.rs:378-407, group.rs:328-345, ungroup.rs:328-345,
handover.rs:332-352, remove.rs:421-448, resize.rs:424-451. -/
def cpiBuilder (interface : Bool) (program programInfo : Key) (k : Kind) (ss : List Setting) :
    Except Err (ClientIx × List Key) := do
  let f := ss.foldl Fields.set {}
  let c ← f.call true k
  return c.cpi interface program programInfo (f.remaining.map storeRemaining)

/-- `invoke_signed` with a list of accounts: those of the instruction and the program must be among them
(not repository code). -/
def invokeInfos (E : Env) (assetId : Key) (pdas : List Key) (L : Ledger) (x : ClientIx × List Key) :
    Except Err Ledger :=
  if assetId ∈ x.2 ∧ ∀ m ∈ x.1.metas, m.key ∈ x.2 then invokeAsset E assetId pdas L x.1.metas x.1.data
  else .error .runtime

end Verif
