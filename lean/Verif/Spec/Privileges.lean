import Verif.Spec.Calls

/-!
# Privileges requested by an instruction
-/

namespace Verif.Spec

open Verif

/-- The environment in which only the privileges requested in the account list are given. -/
def only (E : Env) (metas : List Meta) : Env :=
  { E with
    signer := fun k => metas.any fun m => m.key = k && m.signer
    writable := fun k => metas.any fun m => m.key = k && m.writable }

/-- Everything requested in the account list is given. -/
def Grants (E : Env) (metas : List Meta) : Prop :=
  ∀ m ∈ metas, (m.signer = true → E.signer m.key = true) ∧
    (m.writable = true → E.writable m.key = true)

/-- Two signer flags are left to the caller of the client: they are set if the account signs. -/
def FlagsSet (E : Env) : Call → Prop
  | .create _ authority _ _ _ _ _ _ => E.signer authority.1 = true → authority.2 = true
  | .resize _ _ payer _ _ => E.signer payer.1 = true → payer.2 = true
  | _ => True

/-- The account is not a proxied asset of the program. -/
def NotProxied (E : Env) (L : Ledger) (k : Key) : Prop :=
  (L k).owner = E.program → hStandard (L k).data ≠ Standard.proxied.toU8

/-- The account that comes first. -/
def mainAccount : Call → Key
  | .close a _ | .burn a _ _ _ | .create a _ _ _ _ _ _ _ | .approve a _ _ _ | .allocate a _ _ _
  | .lock a _ | .revoke a _ _ | .transfer a _ _ _ | .unlock a _ | .unverify a _
  | .update a _ _ _ _ _ _ | .verify a _ | .write a _ _ _ | .group a _ _ | .ungroup a _ _
  | .handover a _ _ | .remove a _ _ _ _ | .resize a _ _ _ _ => a

/-- What a call means: the processor of its instruction, with the accounts by name. -/
def meant (E : Env) (L : Ledger) : Call → Except Err Ledger
  | .close buffer recipient => processClose E L buffer recipient
  | .burn asset signer recipient g => processBurn E L asset signer recipient g
  | .create asset authority owner g groupAuthority payer sys x =>
    processCreate E L asset authority.1 owner g groupAuthority payer sys x
  | .approve asset owner delegate x => processApprove E L asset owner delegate x
  | .allocate asset payer sys x => processAllocate E L asset payer sys x
  | .lock asset signer => processLock E L asset signer
  | .revoke asset signer x => processRevoke E L asset signer x
  | .transfer asset signer recipient g => processTransfer E L asset signer recipient g
  | .unlock asset signer => processUnlock E L asset signer
  | .unverify asset creator => processUnverify E L asset creator
  | .update asset authority buffer _ payer sys x =>
    processUpdate E L asset authority buffer payer sys x
  | .verify asset creator => processVerify E L asset creator
  | .write asset payer sys x => processWrite E L asset payer sys x
  | .group asset g authority => processGroup E L asset g authority
  | .ungroup asset g authority => processUngroup E L asset g authority
  | .handover asset authority newAuthority => processHandover E L asset authority newAuthority
  | .remove asset authority _ recipient t => processRemove E L asset authority recipient t
  | .resize asset authority payer sys s => processResize E L asset authority payer.1 sys s

/-- The optional accounts of a call. -/
def optionals : Call → List (Option Key)
  | .burn _ _ recipient g => [recipient, g]
  | .create _ _ _ g groupAuthority payer sys _ => [g, groupAuthority, payer, sys]
  | .allocate _ payer sys _ => [payer, sys]
  | .transfer _ _ _ g => [g]
  | .update _ _ buffer g payer sys _ => [buffer, g, payer, sys]
  | .remove _ _ g _ _ => [g]
  | .resize _ _ _ sys _ => [sys]
  | _ => []

end Verif.Spec
