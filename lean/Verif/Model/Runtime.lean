import Verif.Model.Extensions

/-!
# Helpers of the program that touch the runtime

Lamports, resizing, closing, delegates and royalties:
programs/asset/program/src/processor/mod.rs and programs/asset/program/src/utils.rs.
-/

namespace Verif

/-- `Layout::from_size_align(n, 8)?.pad_to_align().size()`; the error case (a size close to
`isize::MAX`) cannot occur because all operands come from `u32` values. -/
def align8 (n : Nat) : Nat := (n + 7) / 8 * 8

/-- `system::transfer(from, to, amount)`. The CPI is not part of the repository; a failed
CPI aborts the transaction. Succeeds when `from` is a writable signer owned by the system
program without data and with enough lamports, and `to` is writable. -/
def systemTransfer (E : Env) (L : Ledger) (src dst : Key) (amount : Nat) : Except Err Ledger :=
  if E.signer src ∧ E.writable src ∧ E.writable dst ∧ (L src).owner = Key.system ∧
      (L src).data = [] ∧ amount ≤ (L src).lamports then
    let L1 := L.setLamports src ((L src).lamports - amount)
    if (L1 dst).lamports + amount < two64 then
      .ok (L1.setLamports dst ((L1 dst).lamports + amount))
    else .error .cpi
  else .error .cpi

/-- `system::create_account(from, to, lamports, space, owner)`: `to` must be an unused
signer; the data starts zeroed; space is limited to `MAX_PERMITTED_DATA_INCREASE` because
the call is a CPI. -/
def systemCreate (E : Env) (L : Ledger) (src dst : Key) (lamports space : Nat) (owner : Key) :
    Except Err Ledger :=
  if E.signer src ∧ E.writable src ∧ E.signer dst ∧ E.writable dst ∧ src ≠ dst ∧
      (L src).owner = Key.system ∧ (L src).data = [] ∧ lamports ≤ (L src).lamports ∧
      (L dst).owner = Key.system ∧ (L dst).data = [] ∧ (L dst).lamports = 0 ∧
      space ≤ maxIncrease ∧ lamports < two64 then
    let L1 := L.setLamports src ((L src).lamports - lamports)
    .ok (L1.set dst ⟨lamports, zeros space, owner⟩)
  else .error .cpi

/-- `account.realloc(size, false)`: at most `MAX_PERMITTED_DATA_INCREASE` more than at the
start of the instruction; no-op when the length does not change. -/
def realloc (E : Env) (L : Ledger) (k : Key) (size : Nat) : Except Err Ledger :=
  if size = (L k).data.length then .ok L
  else if E.origLen k + maxIncrease < size then .error .invalidRealloc
  else .ok (L.setData k (reallocBytes (L k).data size))

/-- The lamport movement of `resize` when the account shrinks — processor/mod.rs:216-228.
The payer need not sign. `+=`/`-=` wrap. -/
def resizeRefund (E : Env) (L : Ledger) (size : Nat) (k : Key) (payer : Option Key) :
    Except Err Ledger :=
  let delta := (L k).lamports - (if size = 0 then 0 else E.rent size)
  match payer with
  | none => .error .notEnoughAccountKeys
  | some p =>
    let L1 := L.setLamports p (((L p).lamports + delta) % two64)
    .ok (L1.setLamports k (((L1 k).lamports + two64 - delta) % two64))

/-- The lamport movement of `resize` when the account grows or stays — processor/mod.rs:229-268. -/
def resizeFund (E : Env) (L : Ledger) (size : Nat) (k : Key) (payer sys : Option Key) :
    Except Err Ledger := do
  require (size - (L k).data.length ≤ maxIncrease) .accountDataTooSmall
  let delta := E.rent size - (L k).lamports
  if 0 < delta then
    match payer with
    | none => .error .notEnoughAccountKeys
    | some p =>
      match sys with
      | none => .error .notEnoughAccountKeys
      | some s => do
        require (E.signer p) .missingRequiredSignature
        require (s = Key.system) .incorrectProgramId
        systemTransfer E L p k delta
  else return L

/-- The lamport movement of `resize` — processor/mod.rs:214-268. -/
def resizeLamports (E : Env) (L : Ledger) (size : Nat) (k : Key) (payer sys : Option Key) :
    Except Err Ledger :=
  if size < (L k).data.length then resizeRefund E L size k payer
  else resizeFund E L size k payer sys

/-- `resize` — processor/mod.rs:208-280. -/
def resize (E : Env) (L : Ledger) (size : Nat) (k : Key) (payer sys : Option Key) :
    Except Err Ledger := do
  let L1 ← resizeLamports E L size k payer sys
  realloc E L1 k size

/-- `close_program_account` — utils.rs:11-27. Borrowing the lamports of the same account
twice fails; `checked_add(..).unwrap()` panics on overflow. -/
def closeAccount (L : Ledger) (k recipient : Key) : Except Err Ledger :=
  if recipient = k then .error .accountBorrowFailed
  else if two64 ≤ (L recipient).lamports + (L k).lamports then .error .panic
  else
    let L1 := L.setLamports recipient ((L recipient).lamports + (L k).lamports)
    .ok (L1.set k ⟨0, [], Key.system⟩)

/-- One step of the fold of `assert_delegate` — utils.rs:38-57. -/
def assertDelegateStep (target : Key) (role : Role) (result : Except Err Unit)
    (delegate : Option Delegate) : Except Err Unit :=
  match delegate with
  | some x =>
    if x.address ≠ target then .error (.asset .invalidDelegate)
    else if x.isActive role = false then .error (.asset .delegateRoleNotActive)
    else .ok ()
  | none => result

/-- `assert_delegate` — utils.rs:31-59. The `require!`s return from the closure, so a later
entry of the list replaces the result of an earlier one. -/
def assertDelegate (delegates : List (Option Delegate)) (target : Key) (role : Role) :
    Except Err Unit :=
  delegates.foldl (assertDelegateStep target role) (.error (.asset .delegateNotFound))

/-- `Extension::get::<Manager>(extensions).map(|s| s.delegate)` on the data of an asset. -/
def managerOf (d : Bytes) : Except Err (Option Delegate) := do
  match ← extGet .manager (d.drop assetLen) with
  | none => return none
  | some (_, p) => return some (← readManager p)

/-- `utils::Account` as a constraint target — utils.rs:108-125. -/
def targetOf (L : Ledger) (k : Key) : Target := ⟨k, (L k).owner, (L k).data.isEmpty⟩

/-- `process_royalties!` — utils.rs:61-106, on the data of the asset or of its group. -/
def processRoyalties (E : Env) (L : Ledger) (asset signer recipient : Key) (d : Bytes) :
    Except Err Bool := do
  match ← assetGet .royalties d with
  | none => return false
  | some p =>
    let r ← readRoyalties p
    if ¬ (E.inCpi = false ∧ (L signer).owner = Key.system ∧ (L recipient).owner = Key.system)
    then do
      let pass ← evalC ⟨targetOf L asset, targetOf L signer, some (targetOf L recipient)⟩
        r.constraint
      require (pass = true) (.asset .assertionFailure)
      return true
    else return true

/-- `data.len() >= Asset::LEN && data[0] == Discriminator::Asset`. -/
def Initialized (d : Bytes) : Prop := assetLen ≤ d.length ∧ hDisc d = discAsset

instance (d : Bytes) : Decidable (Initialized d) := inferInstanceAs (Decidable (_ ∧ _))

end Verif
