import Verif.Model.Runtime

/-!
# Instruction processors, part one: ownership, delegation, locking, grouping, creators

programs/asset/program/src/processor/*.rs. Every processor takes the ledger and the accounts
of the instruction and returns the ledger afterwards.
-/

namespace Verif

/-! ## Transfer -/

/-- `is_allowed` of transfer.rs:70-79 and burn.rs:51-60: the owner, or `assert_delegate` on
the holder's delegate and the manager. A panic while reading the manager aborts. -/
def ownerOrDelegate (d : Bytes) (signer : Key) (role : Role) : Except Err Bool :=
  if hOwner d = signer then .ok true
  else do
    let m ← managerOf d
    match assertDelegate [hDelegateValue d, m] signer role with
    | .ok _ => return true
    | .error _ => return false

/-- The group part of a transfer — transfer.rs:95-133. -/
def transferGroupCheck (E : Env) (L : Ledger) (asset signer recipient : Key)
    (group : Option Key) (d : Bytes) (royaltiesChecked : Bool) : Except Err Unit :=
  match nullable (hGroup d) with
  | none => .ok ()
  | some g =>
    if royaltiesChecked then .ok ()
    else
      match group with
      | none => .error .notEnoughAccountKeys
      | some ga => do
        require ((L ga).owner = E.program) (.asset .invalidGroup)
        require (g = ga) (.asset .invalidGroup)
        require (ga ≠ asset) .accountBorrowFailed
        let gd := (L ga).data
        require (gd ≠ []) .panic
        require (hDisc gd = discAsset) (.asset .invalidGroup)
        let _ ← processRoyalties E L asset signer recipient gd
        return ()

/-- `process_transfer` — processor/transfer.rs:34-142. -/
def processTransfer (E : Env) (L : Ledger) (asset signer recipient : Key) (group : Option Key) :
    Except Err Ledger := do
  require ((L asset).owner = E.program) .illegalOwner
  require (E.signer signer) .missingRequiredSignature
  let d := (L asset).data
  require (Initialized d) (.asset .uninitialized)
  let royaltiesChecked ← processRoyalties E L asset signer recipient d
  require (hStandard d ≠ Standard.soulbound.toU8) (.asset .cannotTransferSoulbound)
  let allowed ← ownerOrDelegate d signer .transfer
  require (allowed = true) (.asset .invalidTransferAuthority)
  if hOwner d = recipient then return L
  else do
    transferGroupCheck E L asset signer recipient group d royaltiesChecked
    return L.setData asset (setDelegate (setOwner d recipient) Key.default 0)

/-! ## Approve and revoke -/

/-- `DelegateInput` — instruction.rs:135-145. -/
inductive DelegateInput
  | all
  | some (roles : List Role)
  deriving DecidableEq, Repr

/-- The roles requested by an approval — approve.rs:59-62. -/
def DelegateInput.approveMask : DelegateInput → UInt8
  | .all => allRolesMask
  | .some roles => roles.foldl (fun all r => all ||| r.mask) 0

/-- `process_approve` — processor/approve.rs:23-81. -/
def processApprove (E : Env) (L : Ledger) (asset owner delegate : Key) (args : DelegateInput) :
    Except Err Ledger := do
  require ((L asset).owner = E.program) .illegalOwner
  let d := (L asset).data
  require (Initialized d) (.asset .uninitialized)
  require (hOwner d = owner) (.asset .invalidAssetOwner)
  require (E.signer owner) .missingRequiredSignature
  let roles := args.approveMask
  if hDelegate d ≠ Key.default ∧ hDelegate d = delegate then
    return L.setData asset (setRoles d (hRoles d ||| roles))
  else
    return L.setData asset (setDelegate d delegate roles)

/-- `roles.iter().for_each(|role| delegate.disable(*role))` — revoke.rs:74,
delegate.rs:32-34. -/
def disableRoles (roles : UInt8) (rs : List Role) : UInt8 :=
  rs.foldl (fun m r => m &&& ~~~ r.mask) roles

/-- `process_revoke` — processor/revoke.rs:23-85. -/
def processRevoke (E : Env) (L : Ledger) (asset signer : Key) (args : DelegateInput) :
    Except Err Ledger := do
  require (E.signer signer) .missingRequiredSignature
  require ((L asset).owner = E.program) .illegalOwner
  let d := (L asset).data
  require (Initialized d) (.asset .uninitialized)
  require (hOwner d = signer ∨ (hDelegate d ≠ Key.default ∧ hDelegate d = signer))
    (.asset .invalidAuthority)
  match args with
  | .all => return L.setData asset (setDelegate d Key.default 0)
  | .some rs =>
    if hDelegate d ≠ Key.default then
      let roles := disableRoles (hRoles d) rs
      if roles = 0 then return L.setData asset (setDelegate d Key.default 0)
      else return L.setData asset (setRoles d roles)
    else return L

/-! ## Lock and unlock -/

/-- The authority check of lock.rs:48-65 and unlock.rs:48-65. -/
def lockAuthority (d : Bytes) (signer : Key) : Except Err Unit := do
  let m ← managerOf d
  match hDelegateValue d with
  | some x => assertDelegate [some x, m] signer .lock
  | none => if hOwner d ≠ signer then assertDelegate [m] signer .lock else return ()

/-- `process_lock` — processor/lock.rs:21-70. -/
def processLock (E : Env) (L : Ledger) (asset signer : Key) : Except Err Ledger := do
  require (E.signer signer) .missingRequiredSignature
  require ((L asset).owner = E.program) .illegalOwner
  let d := (L asset).data
  require (Initialized d) (.asset .uninitialized)
  lockAuthority d signer
  return L.setData asset (setState d stateLocked)

/-- `process_unlock` — processor/unlock.rs:21-70. -/
def processUnlock (E : Env) (L : Ledger) (asset signer : Key) : Except Err Ledger := do
  require (E.signer signer) .missingRequiredSignature
  require ((L asset).owner = E.program) .illegalOwner
  let d := (L asset).data
  require (Initialized d) (.asset .uninitialized)
  lockAuthority d signer
  return L.setData asset (setState d stateUnlocked)

/-! ## Burn and close -/

/-- Decreasing the group size when a member is burned — burn.rs:70-100. The group account
is neither checked for its owner nor for its discriminator. -/
def burnGroup (L : Ledger) (asset : Key) (group : Option Key) (d : Bytes) : Except Err Ledger :=
  match nullable (hGroup d) with
  | none => .ok L
  | some g =>
    match group with
    | none => .error .notEnoughAccountKeys
    | some ga => do
      require (g = ga) .invalidArgument
      require (ga ≠ asset) .accountBorrowFailed
      let gd := (L ga).data
      match ← assetGetMut .grouping gd with
      | none => .error (.asset .extensionNotFound)
      | some (off, p) => do
        let gr ← readGrouping p
        require (gr.size ≠ 0) .invalidAccountData
        return L.setData ga (splice gd off (setGroupSize p (gr.size - 1)))

/-- `process_burn` — processor/burn.rs:25-116. -/
def processBurn (E : Env) (L : Ledger) (asset signer : Key) (recipient group : Option Key) :
    Except Err Ledger := do
  require ((L asset).owner = E.program) .illegalOwner
  require (E.signer signer) .missingRequiredSignature
  let d := (L asset).data
  require (Initialized d) (.asset .uninitialized)
  let allowed ← ownerOrDelegate d signer .burn
  require (allowed = true) (.asset .invalidBurnAuthority)
  let L1 ← burnGroup L asset group d
  match ← assetGet .grouping d with
  | some p => do
    let gr ← readGrouping p
    require (gr.size = 0) (.asset .groupNotEmpty)
    closeAccount L1 asset (recipient.getD signer)
  | none => closeAccount L1 asset (recipient.getD signer)

/-- `process_close` — processor/close.rs:17-48. -/
def processClose (E : Env) (L : Ledger) (buffer recipient : Key) : Except Err Ledger := do
  require (E.signer buffer) .missingRequiredSignature
  require ((L buffer).owner = E.program) .illegalOwner
  let d := (L buffer).data
  require (d = [] ∨ hDisc d = discUninit) (.asset .alreadyInitialized)
  closeAccount L buffer recipient

/-! ## Group and ungroup -/

/-- The authority check of group.rs:86-101 and ungroup.rs:80-95. -/
def groupAuthority (gd : Bytes) (gr : Grouping) (authority : Key) : Except Err Unit :=
  if authority ≠ hAuthority gd then
    if gr.delegate ≠ Key.default then require (gr.delegate = authority) (.asset .invalidAuthority)
    else .error (.asset .invalidAuthority)
  else .ok ()

/-- `process_group` — processor/group.rs:22-117. -/
def processGroup (E : Env) (L : Ledger) (asset group authority : Key) : Except Err Ledger := do
  require (E.signer authority) .missingRequiredSignature
  require ((L asset).owner = E.program) .illegalOwner
  require ((L group).owner = E.program) .illegalOwner
  let d := (L asset).data
  require (Initialized d) (.asset .uninitialized)
  require (group ≠ asset) .accountBorrowFailed
  let gd := (L group).data
  require (Initialized gd) (.asset .uninitialized)
  require (hGroup d = Key.default) (.asset .alreadyInGroup)
  require (hAuthority gd = hAuthority d) (.asset .invalidAuthority)
  match ← extGet .grouping (gd.drop assetLen) with
  | none => .error (.asset .extensionNotFound)
  | some (off, p) => do
    let gr ← readGrouping p
    groupAuthority gd gr authority
    require (gr.maxSize = 0 ∨ gr.size < gr.maxSize) (.asset .extensionDataInvalid)
    let L1 := L.setData asset (setGroup d group)
    return L1.setData group
      (splice gd (assetLen + off) (setGroupSize p ((gr.size + 1) % two64)))

/-- `process_ungroup` — processor/ungroup.rs:22-102. `*grouping.size -= 1` wraps. -/
def processUngroup (E : Env) (L : Ledger) (asset group authority : Key) : Except Err Ledger := do
  require (E.signer authority) .missingRequiredSignature
  require ((L asset).owner = E.program) .illegalOwner
  require ((L group).owner = E.program) .illegalOwner
  let d := (L asset).data
  require (Initialized d) (.asset .uninitialized)
  require (group ≠ asset) .accountBorrowFailed
  let gd := (L group).data
  require (Initialized gd) (.asset .uninitialized)
  require (hGroup d = group) .invalidArgument
  match ← extGet .grouping (gd.drop assetLen) with
  | none => .error (.asset .extensionNotFound)
  | some (off, p) => do
    let gr ← readGrouping p
    groupAuthority gd gr authority
    let L1 := L.setData asset (setGroup d Key.default)
    return L1.setData group
      (splice gd (assetLen + off) (setGroupSize p ((gr.size + two64 - 1) % two64)))

/-! ## Handover -/

/-- `process_handover` — processor/handover.rs:20-66. -/
def processHandover (E : Env) (L : Ledger) (asset authority newAuthority : Key) :
    Except Err Ledger := do
  require (E.signer authority) .missingRequiredSignature
  require (E.signer newAuthority) .missingRequiredSignature
  require ((L asset).owner = E.program) .illegalOwner
  let d := (L asset).data
  require (Initialized d) (.asset .uninitialized)
  require (hAuthority d = authority) (.asset .invalidAuthority)
  require (hMutable d = true) (.asset .immutableAsset)
  return L.setData asset (setAuthority d newAuthority)

/-! ## Verify and unverify -/

/-- Common body of verify.rs:20-71 (`value = true`) and unverify.rs:20-71
(`value = false`). -/
def processSetVerified (E : Env) (L : Ledger) (asset creator : Key) (value : Bool) :
    Except Err Ledger := do
  require (E.signer creator) .missingRequiredSignature
  require ((L asset).owner = E.program) .illegalOwner
  let d := (L asset).data
  require (Initialized d) (.asset .uninitialized)
  match ← assetGetMut .creators d with
  | none => .error (.asset .extensionNotFound)
  | some (off, p) => do
    let cs ← readCreators p
    require (cs.any (fun c => c.address = creator) = true) .invalidArgument
    let cs' := cs.map fun c =>
      if c.address = creator then { c with verified := podBool value } else c
    return L.setData asset (splice d off (creatorsBytes cs'))

/-- `process_verify` — processor/verify.rs:20-71. -/
def processVerify (E : Env) (L : Ledger) (asset creator : Key) : Except Err Ledger :=
  processSetVerified E L asset creator true

/-- `process_unverify` — processor/unverify.rs:20-71. -/
def processUnverify (E : Env) (L : Ledger) (asset creator : Key) : Except Err Ledger :=
  processSetVerified E L asset creator false

end Verif
