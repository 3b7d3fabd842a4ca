import Verif.Model.ProcExt

/-!
# The program: access validation, dispatch, commit, histories

programs/asset/program/src/processor/mod.rs, instruction.rs, entrypoint.rs.
-/

namespace Verif

/-- `Instruction` — instruction.rs:12-126, in declaration order (the borsh tags). -/
inductive Instr
  | close
  | burn
  | create (x : CreateInput)
  | approve (x : DelegateInput)
  | allocate (x : ExtInput)
  | lock
  | revoke (x : DelegateInput)
  | transfer
  | unlock
  | unverify
  | update (x : UpdateInput)
  | verify
  | write (x : WriteInput)
  | group
  | ungroup
  | handover
  | remove (t : ExtType)
  | resize (s : Strategy)
  deriving DecidableEq, Repr

/-- First account check of `validate_access` — processor/mod.rs:165-187: a proxied asset
must sign. Indexing the data may panic on a short account. -/
def proxiedCheck (E : Env) (L : Ledger) : List Key → Except Err Unit
  | [] => .ok ()
  | k :: _ =>
    let d := (L k).data
    if (L k).owner = E.program ∧ d ≠ [] then do
      require (2 < d.length) .panic
      require (hStandard d ≠ Standard.proxied.toU8 ∨ E.signer k = true)
        .missingRequiredSignature
    else .ok ()

/-- The loop of `validate_access` — processor/mod.rs:189-204: is any of the accounts a
locked asset? -/
def lockedScan (E : Env) (L : Ledger) : List Key → Except Err Bool
  | [] => .ok false
  | k :: ks =>
    let d := (L k).data
    if (L k).owner = E.program ∧ d ≠ [] ∧ hDisc d = discAsset then do
      require (1 < d.length) .panic
      if hState d = stateLocked then return true else lockedScan E L ks
    else lockedScan E L ks

/-- Instructions refused when a locked asset is among the accounts —
processor/mod.rs:56-63. -/
def Instr.blockedByLock : Instr → Bool
  | .approve _ | .burn | .lock | .revoke _ | .transfer => true
  | _ => false

/-- An optional account is absent when the program id is passed in its place (nitrate /
shank convention). -/
def optAcc (E : Env) (k : Key) : Option Key := if k = E.program then none else some k

/-- `match instruction` — processor/mod.rs:68-141, with the account lists of
instruction.rs:12-126. Too few accounts: `NotEnoughAccountKeys`. -/
def dispatch (E : Env) (L : Ledger) : Instr → List Key → Except Err Ledger
  | .close, buffer :: recipient :: _ => processClose E L buffer recipient
  | .burn, asset :: signer :: recipient :: group :: _ =>
    processBurn E L asset signer (optAcc E recipient) (optAcc E group)
  | .create x, asset :: authority :: owner :: group :: groupAuthority :: payer :: sys :: _ =>
    processCreate E L asset authority owner (optAcc E group) (optAcc E groupAuthority)
      (optAcc E payer) (optAcc E sys) x
  | .approve x, asset :: owner :: delegate :: _ => processApprove E L asset owner delegate x
  | .allocate x, asset :: payer :: sys :: _ =>
    processAllocate E L asset (optAcc E payer) (optAcc E sys) x
  | .lock, asset :: signer :: _ => processLock E L asset signer
  | .revoke x, asset :: signer :: _ => processRevoke E L asset signer x
  | .transfer, asset :: signer :: recipient :: group :: _ =>
    processTransfer E L asset signer recipient (optAcc E group)
  | .unlock, asset :: signer :: _ => processUnlock E L asset signer
  | .unverify, asset :: creator :: _ => processUnverify E L asset creator
  | .update x, asset :: authority :: buffer :: _group :: payer :: sys :: _ =>
    processUpdate E L asset authority (optAcc E buffer) (optAcc E payer) (optAcc E sys) x
  | .verify, asset :: creator :: _ => processVerify E L asset creator
  | .write x, asset :: payer :: sys :: _ => processWrite E L asset payer sys x
  | .group, asset :: group :: authority :: _ => processGroup E L asset group authority
  | .ungroup, asset :: group :: authority :: _ => processUngroup E L asset group authority
  | .handover, asset :: authority :: newAuthority :: _ =>
    processHandover E L asset authority newAuthority
  | .remove t, asset :: authority :: _group :: recipient :: _ =>
    processRemove E L asset authority recipient t
  | .resize s, asset :: authority :: payer :: sys :: _ =>
    processResize E L asset authority payer (optAcc E sys) s
  | _, _ => .error .notEnoughAccountKeys

/-- `process_instruction` after decoding — processor/mod.rs:54-142. -/
def processInstr (E : Env) (L : Ledger) (accts : List Key) (i : Instr) : Except Err Ledger := do
  proxiedCheck E L accts
  let locked ← lockedScan E L accts
  require (¬ (locked = true ∧ i.blockedByLock = true)) (.asset .lockedAsset)
  dispatch E L i accts

/-- `MAX_PERMITTED_DATA_LENGTH` of the runtime: 10 MiB. -/
def maxDataLen : Nat := 10485760

/-- May the runtime accept this change of account `k` by this program? Not repository code:
read-only accounts do not change; only the owner changes data, owner or debits; system
accounts are debited or allocated through the system program, which needs their signature;
an account holds at most 10 MiB.
(The runtime enforces more, e.g. that the sum of lamports is unchanged; that is proved, not
assumed.) -/
def changeAllowed (E : Env) (k : Key) (a a' : Account) : Bool :=
  decide (a' = a) ||
  (E.writable k && decide (a'.data.length ≤ maxDataLen) &&
    (decide (a.owner = E.program) ||
     (decide (a.owner = Key.system) && E.signer k && decide (a.data = [])) ||
     decide (a'.data = a.data ∧ a'.owner = a.owner ∧ a.lamports ≤ a'.lamports)))

/-- One instruction run by the runtime. At most 7 accounts are passed on by the entrypoint
(entrypoint.rs:10). An error leaves the ledger as it was. -/
def execute (E : Env) (L : Ledger) (accts : List Key) (i : Instr) : Except Err Ledger := do
  let L' ← processInstr E L (accts.take 7) i
  if accts.all (fun k => changeAllowed E k (L k) (L' k)) then return L' else .error .runtime

/-- What any other program may do to the ledger: accounts of the asset program keep their
data and owner; an account handed over to the asset program has no data or only zero
bytes (runtime rule for `assign`), and at most 10 MiB of them. -/
def Foreign (program : Key) (L L' : Ledger) : Prop :=
  ∀ k, ((L k).owner = program → (L' k).owner = program ∧ (L' k).data = (L k).data) ∧
    ((L k).owner ≠ program → (L' k).owner = program →
      (∀ b ∈ (L' k).data, b = 0) ∧ (L' k).data.length ≤ maxDataLen)

/-- One step of a history: an instruction of the asset program, or anything else. -/
inductive Step (program : Key) : Ledger → Ledger → Prop
  | instr (E : Env) (L L' : Ledger) (accts : List Key) (i : Instr)
      (hp : E.program = program) (hl : ∀ k, E.origLen k = (L k).data.length)
      (h : execute E L accts i = .ok L') : Step program L L'
  | foreign (L L' : Ledger) (h : Foreign program L L') : Step program L L'

/-- Histories: any number of steps. -/
inductive Steps (program : Key) : Ledger → Ledger → Prop
  | refl (L : Ledger) : Steps program L L
  | tail (L L' L'' : Ledger) (hs : Steps program L L') (h : Step program L' L'') :
      Steps program L L''

end Verif
