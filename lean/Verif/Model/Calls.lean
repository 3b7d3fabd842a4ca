import Verif.Model.Cpi

/-!
# The instruction builders of the Rust client

clients/rust/asset/src/generated/instructions/*.rs: for every instruction a struct with the
accounts, a struct with the arguments, and `instruction_with_remaining_accounts`, which lists the
account metas and serialises a discriminator byte followed by the arguments. Remaining accounts
are left out (`instruction` passes none).
-/

namespace Verif

/-- `solana_program::instruction::Instruction` for the asset program: the account list and the
instruction data. -/
structure ClientIx where
  metas : List Meta
  data : Bytes
  deriving DecidableEq, Repr

/-- The accounts of the instruction. -/
def ClientIx.keys (x : ClientIx) : List Key := x.metas.map (·.key)

/-- `AccountMeta::new`. -/
def metaRw (k : Key) (signer : Bool) : Meta := ⟨k, signer, true⟩

/-- `AccountMeta::new_readonly`. -/
def metaRo (k : Key) (signer : Bool) : Meta := ⟨k, signer, false⟩

/-- An optional account; the id of the program stands for its absence. -/
def metaOpt (program : Key) (f : Key → Meta) : Option Key → Meta
  | some k => f k
  | none => metaRo program false

/-- The account structs `Close`, `Burn`, … together with the arguments. -/
inductive Call
  | close (buffer recipient : Key)
  | burn (asset signer : Key) (recipient group : Option Key)
  | create (asset : Key) (authority : Key × Bool) (owner : Key)
      (group groupAuthority payer sys : Option Key) (x : CreateInput)
  | approve (asset owner delegate : Key) (x : DelegateInput)
  | allocate (asset : Key) (payer sys : Option Key) (x : ExtInput)
  | lock (asset signer : Key)
  | revoke (asset signer : Key) (x : DelegateInput)
  | transfer (asset signer recipient : Key) (group : Option Key)
  | unlock (asset signer : Key)
  | unverify (asset creator : Key)
  | update (asset authority : Key) (buffer group payer sys : Option Key) (x : UpdateInput)
  | verify (asset creator : Key)
  | write (asset payer sys : Key) (x : WriteInput)
  | group (asset group authority : Key)
  | ungroup (asset group authority : Key)
  | handover (asset authority newAuthority : Key)
  | remove (asset authority : Key) (group : Option Key) (recipient : Key) (t : ExtType)
  | resize (asset authority : Key) (payer : Key × Bool) (sys : Option Key) (s : Strategy)

/-- The account metas — close.rs:24-36, burn.rs:28-57, create.rs:39-93, approve.rs:30-47,
allocate.rs:30-58, lock.rs:24-36, revoke.rs:28-42, transfer.rs:28-53, unlock.rs:24-36,
unverify.rs:24-36, update.rs:36-87, verify.rs:24-36, write.rs:29-46, group.rs:26-41,
ungroup.rs:26-41, handover.rs:26-42, remove.rs:32-59, resize.rs:32-60. -/
def Call.metas (program : Key) : Call → List Meta
  | .close buffer recipient => [metaRw buffer true, metaRw recipient false]
  | .burn asset signer recipient g =>
    [metaRw asset false, metaRw signer true, metaOpt program (metaRw · false) recipient,
      metaOpt program (metaRw · false) g]
  | .create asset authority owner g groupAuthority payer sys _ =>
    [metaRw asset true, metaRo authority.1 authority.2, metaRo owner false,
      metaOpt program (metaRw · false) g, metaOpt program (metaRo · true) groupAuthority,
      metaOpt program (metaRw · true) payer, metaOpt program (metaRo · false) sys]
  | .approve asset owner delegate _ =>
    [metaRw asset false, metaRo owner true, metaRo delegate false]
  | .allocate asset payer sys _ =>
    [metaRw asset true, metaOpt program (metaRw · true) payer,
      metaOpt program (metaRo · false) sys]
  | .lock asset signer => [metaRw asset false, metaRo signer true]
  | .revoke asset signer _ => [metaRw asset false, metaRo signer true]
  | .transfer asset signer recipient g =>
    [metaRw asset false, metaRo signer true, metaRo recipient false,
      metaOpt program (metaRo · false) g]
  | .unlock asset signer => [metaRw asset false, metaRo signer true]
  | .unverify asset creator => [metaRw asset false, metaRo creator true]
  | .update asset authority buffer g payer sys _ =>
    [metaRw asset false, metaRo authority true, metaOpt program (metaRw · false) buffer,
      metaOpt program (metaRo · false) g, metaOpt program (metaRw · true) payer,
      metaOpt program (metaRo · false) sys]
  | .verify asset creator => [metaRw asset false, metaRo creator true]
  | .write asset payer sys _ => [metaRw asset true, metaRw payer true, metaRo sys false]
  | .group asset g authority =>
    [metaRw asset false, metaRw g false, metaRo authority true]
  | .ungroup asset g authority =>
    [metaRw asset false, metaRw g false, metaRo authority true]
  | .handover asset authority newAuthority =>
    [metaRw asset false, metaRo authority true, metaRo newAuthority true]
  | .remove asset authority g recipient _ =>
    [metaRw asset false, metaRo authority true, metaOpt program (metaRo · false) g,
      metaRw recipient false]
  | .resize asset authority payer sys _ =>
    [metaRw asset false, metaRo authority true, metaRw payer.1 payer.2,
      metaOpt program (metaRo · false) sys]

/-- The arguments as borsh serialises the client's structs — create.rs:125-130, approve.rs:78-80,
allocate.rs:90-92, revoke.rs:73-75, update.rs:118-122, write.rs:77-80, remove.rs:91-93,
resize.rs:92-94 and ../types/{extension_input,delegate_input,strategy}.rs. -/
def Call.args : Call → Bytes
  | .create _ _ _ _ _ _ _ x =>
    encBytes x.name ++ ([x.standard.tag] ++ (encBool x.isMutable ++
      encOpt (encVec encExtInput) x.extensions))
  | .approve _ _ _ x | .revoke _ _ x => encDelegateInput x
  | .allocate _ _ _ x => encExtInput x
  | .update _ _ _ _ _ _ x =>
    encOpt encBytes x.name ++ (encOpt encBool x.isMutable ++ encOpt encExtInput x.extension)
  | .write _ _ _ x => encBool x.overwrite ++ encBytes x.bytes
  | .remove _ _ _ _ t => [t.tag]
  | .resize _ _ _ _ s => encStrategy s
  | _ => []

/-- The discriminator — close.rs:55, burn.rs:76, create.rs:113, approve.rs:66, allocate.rs:78,
lock.rs:54, revoke.rs:61, transfer.rs:72, unlock.rs:54, unverify.rs:54, update.rs:106,
verify.rs:54, write.rs:65, group.rs:59, ungroup.rs:59, handover.rs:60, remove.rs:79,
resize.rs:80. -/
def Call.discriminator : Call → UInt8
  | .close .. => 0
  | .burn .. => 1
  | .create .. => 2
  | .approve .. => 3
  | .allocate .. => 4
  | .lock .. => 5
  | .revoke .. => 6
  | .transfer .. => 7
  | .unlock .. => 8
  | .unverify .. => 9
  | .update .. => 10
  | .verify .. => 11
  | .write .. => 12
  | .group .. => 13
  | .ungroup .. => 14
  | .handover .. => 15
  | .remove .. => 16
  | .resize .. => 17

/-- `instruction(args)`. -/
def Call.build (program : Key) (c : Call) : ClientIx :=
  ⟨c.metas program, [c.discriminator] ++ c.args⟩

end Verif
