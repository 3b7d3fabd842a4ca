import Verif.Model.Calls
import Verif.Model.Interface

/-!
# The instruction builders of the interface crate

programs/asset/interface/src/generated/instructions/*.rs: generated from another description of the
same instructions (../interface.rs:10-129), in which the asset is a signer everywhere. Arguments and
discriminators are the same code as in the client (`diff` shows comments, the signer flag of the
asset and the name of the constant for the program id, which has the same value), so that
`Call.args` and `Call.discriminator` are used again.
-/

namespace Verif

/-- The account metas — close.rs:28-36, burn.rs:32-57, create.rs:44-92, approve.rs:35-45,
allocate.rs:35-57, lock.rs:28-35, revoke.rs:33-40, transfer.rs:32-53, unlock.rs:28-35,
unverify.rs:28-35, update.rs:41-85, verify.rs:28-35, write.rs:34-44, group.rs:30-40,
ungroup.rs:30-40, handover.rs:30-41, remove.rs:37-58, resize.rs:37-59. -/
def Call.interfaceMetas (program : Key) : Call → List Meta
  | .close buffer recipient => [metaRw buffer true, metaRw recipient false]
  | .burn asset signer recipient g =>
    [metaRw asset true, metaRw signer true, metaOpt program (metaRw · false) recipient,
      metaOpt program (metaRw · false) g]
  | .create asset authority owner g groupAuthority payer sys _ =>
    [metaRw asset true, metaRo authority.1 authority.2, metaRo owner false,
      metaOpt program (metaRw · false) g, metaOpt program (metaRo · true) groupAuthority,
      metaOpt program (metaRw · true) payer, metaOpt program (metaRo · false) sys]
  | .approve asset owner delegate _ =>
    [metaRw asset true, metaRo owner true, metaRo delegate false]
  | .allocate asset payer sys _ =>
    [metaRw asset true, metaOpt program (metaRw · true) payer,
      metaOpt program (metaRo · false) sys]
  | .lock asset signer => [metaRw asset true, metaRo signer true]
  | .revoke asset signer _ => [metaRw asset true, metaRo signer true]
  | .transfer asset signer recipient g =>
    [metaRw asset true, metaRo signer true, metaRo recipient false,
      metaOpt program (metaRo · false) g]
  | .unlock asset signer => [metaRw asset true, metaRo signer true]
  | .unverify asset creator => [metaRw asset true, metaRo creator true]
  | .update asset authority buffer g payer sys _ =>
    [metaRw asset true, metaRo authority true, metaOpt program (metaRw · false) buffer,
      metaOpt program (metaRo · false) g, metaOpt program (metaRw · true) payer,
      metaOpt program (metaRo · false) sys]
  | .verify asset creator => [metaRw asset true, metaRo creator true]
  | .write asset payer sys _ => [metaRw asset true, metaRw payer true, metaRo sys false]
  | .group asset g authority =>
    [metaRw asset true, metaRw g false, metaRo authority true]
  | .ungroup asset g authority =>
    [metaRw asset true, metaRw g false, metaRo authority true]
  | .handover asset authority newAuthority =>
    [metaRw asset true, metaRo authority true, metaRo newAuthority true]
  | .remove asset authority g recipient _ =>
    [metaRw asset true, metaRo authority true, metaOpt program (metaRo · false) g,
      metaRw recipient false]
  | .resize asset authority payer sys _ =>
    [metaRw asset true, metaRo authority true, metaRw payer.1 payer.2,
      metaOpt program (metaRo · false) sys]

/-- `instruction(args)` of the interface crate. -/
def Call.interface (program : Key) (c : Call) : ClientIx :=
  ⟨c.interfaceMetas program, [c.discriminator] ++ c.args⟩

end Verif
