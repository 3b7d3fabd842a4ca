import Verif.Bytes

/-!
# Errors, keys, accounts, ledger and runtime environment
-/

namespace Verif

/-- `AssetError` — programs/asset/program/src/error.rs:10-98. -/
inductive AssetError
  | alreadyInitialized | invalidAccountLength | incompleteExtensionData | uninitialized
  | extensionNotFound | invalidAlignment | invalidBurnAuthority | invalidTransferAuthority
  | delegateNotFound | delegateRoleNotActive | invalidDelegate | invalidAssetOwner
  | lockedAsset | invalidAuthority | immutableAsset | cannotTransferSoulbound
  | extensionDataInvalid | invalidGroup | assertionFailure | groupNotEmpty
  | alreadyInGroup | extensionLengthInvalid
  deriving DecidableEq, Repr

/-- `Error` of the types crate — programs/asset/types/src/error.rs:4-35 (payloads dropped). -/
inductive TypesError
  | invalidCreatorsTotalShare | invalidRoyaltyBasisPoints | cannotUnverifyCreator
  | cannotRemoveVerifiedCreator | invalidGroupSize | invalidMaximumGroupSize
  | invalidExtensionType | cannotModifyDerivationData
  deriving DecidableEq, Repr

/-- Why an instruction fails. The first group are the `ProgramError`s returned by the
program, `asset` wraps `AssetError`, `types` the error of an extension's lifecycle hook
(always mapped to an `AssetError` before it leaves the program). `panic` stands for every Rust panic (slice index out
of range, `unwrap` on `None`, size mismatch in a `bytemuck` cast, explicit `panic!`),
`diverge` for a loop that never terminates (on chain: compute budget exhausted), `oob` for
a raw pointer access outside the account data (undefined behaviour in the code; the model
stops), `undef` for reading an enum from an invalid discriminant. `cpi` is a failed system
program call and `runtime` a change refused by the Solana runtime. -/
inductive Err
  | missingRequiredSignature | illegalOwner | notEnoughAccountKeys | incorrectProgramId
  | invalidInstructionData | invalidArgument | invalidAccountData | invalidSeeds
  | accountBorrowFailed | accountDataTooSmall | invalidRealloc
  | asset (e : AssetError)
  | types (e : TypesError)
  | panic | diverge | oob | undef | cpi | runtime
  deriving DecidableEq, Repr

/-- `require!` — programs/asset/program/src/processor/mod.rs:144-155. -/
def require (c : Prop) [Decidable c] (e : Err) : Except Err Unit :=
  if c then .ok () else .error e

deriving instance DecidableEq for Except

/-- `Pubkey`: 32 bytes. -/
def Key := { l : Bytes // l.length = 32 }

instance : DecidableEq Key := inferInstanceAs (DecidableEq { l : Bytes // l.length = 32 })

instance : Repr Key := ⟨fun k _ => repr k.1⟩

namespace Key

/-- The key made of the first 32 bytes (zero padded, so that it is total). The model only
applies it to 32-byte slices. -/
def ofBytes (b : Bytes) : Key := ⟨(b ++ zeros 32).take 32, by simp [zeros]⟩

/-- `Pubkey::default()`: 32 zero bytes. -/
def default : Key := ⟨zeros 32, by simp [zeros]⟩

/-- `system_program::ID` is `11111111111111111111111111111111`, i.e. 32 zero bytes. -/
def system : Key := default

end Key

/-- `Pubkey` stored at offset `off`. -/
def keyAt (d : Bytes) (off : Nat) : Key := Key.ofBytes (slice d off 32)

/-- A Solana account. -/
structure Account where
  lamports : Nat
  data : Bytes
  owner : Key
  deriving DecidableEq, Repr

/-- All accounts, by address. An address never used is `⟨0, [], system⟩`. -/
abbrev Ledger := Key → Account

/-- Replace one account. -/
def Ledger.set (L : Ledger) (k : Key) (a : Account) : Ledger := fun x => if x = k then a else L x

/-- Replace the data of one account. -/
def Ledger.setData (L : Ledger) (k : Key) (d : Bytes) : Ledger := L.set k { L k with data := d }

/-- Replace the lamports of one account. -/
def Ledger.setLamports (L : Ledger) (k : Key) (n : Nat) : Ledger :=
  L.set k { L k with lamports := n }

/-- What the program can observe from the runtime while processing one instruction.

* `program`: the program id (`program_id`, `crate::ID`).
* `rent`: `Rent::get()?.minimum_balance`.
* `inCpi`: `get_stack_height() > TRANSACTION_LEVEL_STACK_HEIGHT`.
* `pda`: `Pubkey::create_program_address(&[seeds, &[bump]], program)`, `none` on error.
* `signer` / `writable`: privileges of the accounts. They depend on the key only, because
  the runtime merges the privileges of repeated accounts.
* `origLen`: data length of the accounts when the instruction started. -/
structure Env where
  program : Key
  rent : Nat → Nat
  inCpi : Bool
  pda : Bytes → UInt8 → Key → Option Key
  signer : Key → Bool
  writable : Key → Bool
  origLen : Key → Nat

/-- Two to the 64th: lamports and `u64` arithmetic wrap at this value. -/
def two64 : Nat := 18446744073709551616

/-- Two to the 32nd. -/
def two32 : Nat := 4294967296

/-- `MAX_PERMITTED_DATA_INCREASE` (solana-program). -/
def maxIncrease : Nat := 10240

end Verif
