import Verif.Model.Base

/-!
# Error codes, in the programs and in the clients

The numbers that leave the asset program and the tables with which the clients and the interface
descriptions (IDL) turn them back into names and messages.
-/

namespace Verif

/-! ## The program -/

/-- `e as u32` — the position in the enumeration, programs/asset/program/src/error.rs:9-98. -/
def AssetError.code : AssetError → Nat
  | .alreadyInitialized => 0
  | .invalidAccountLength => 1
  | .incompleteExtensionData => 2
  | .uninitialized => 3
  | .extensionNotFound => 4
  | .invalidAlignment => 5
  | .invalidBurnAuthority => 6
  | .invalidTransferAuthority => 7
  | .delegateNotFound => 8
  | .delegateRoleNotActive => 9
  | .invalidDelegate => 10
  | .invalidAssetOwner => 11
  | .lockedAsset => 12
  | .invalidAuthority => 13
  | .immutableAsset => 14
  | .cannotTransferSoulbound => 15
  | .extensionDataInvalid => 16
  | .invalidGroup => 17
  | .assertionFailure => 18
  | .groupNotEmpty => 19
  | .alreadyInGroup => 20
  | .extensionLengthInvalid => 21

/-- Name of the variant — programs/asset/program/src/error.rs:9-98. -/
def AssetError.name : AssetError → String
  | .alreadyInitialized => "AlreadyInitialized"
  | .invalidAccountLength => "InvalidAccountLength"
  | .incompleteExtensionData => "IncompleteExtensionData"
  | .uninitialized => "Uninitialized"
  | .extensionNotFound => "ExtensionNotFound"
  | .invalidAlignment => "InvalidAlignment"
  | .invalidBurnAuthority => "InvalidBurnAuthority"
  | .invalidTransferAuthority => "InvalidTransferAuthority"
  | .delegateNotFound => "DelegateNotFound"
  | .delegateRoleNotActive => "DelegateRoleNotActive"
  | .invalidDelegate => "InvalidDelegate"
  | .invalidAssetOwner => "InvalidAssetOwner"
  | .lockedAsset => "LockedAsset"
  | .invalidAuthority => "InvalidAuthority"
  | .immutableAsset => "ImmutableAsset"
  | .cannotTransferSoulbound => "CannotTransferSoulbound"
  | .extensionDataInvalid => "ExtensionDataInvalid"
  | .invalidGroup => "InvalidGroup"
  | .assertionFailure => "AssertionFailure"
  | .groupNotEmpty => "GroupNotEmpty"
  | .alreadyInGroup => "AlreadyInGroup"
  | .extensionLengthInvalid => "ExtensionLengthInvalid"

/-- `#[error("…")]` — programs/asset/program/src/error.rs:9-98. -/
def AssetError.message : AssetError → String
  | .alreadyInitialized => "Asset already initialized"
  | .invalidAccountLength => "Invalid account length"
  | .incompleteExtensionData => "Incomplete extension data"
  | .uninitialized => "Uninitialized account"
  | .extensionNotFound => "Extension not found"
  | .invalidAlignment => "Invalid alignment"
  | .invalidBurnAuthority => "Invalid owner or burn delegate"
  | .invalidTransferAuthority => "Invalid owner or transfer delegate"
  | .delegateNotFound => "Delegate not found"
  | .delegateRoleNotActive => "Delegate role not active"
  | .invalidDelegate => "Invalid delegate"
  | .invalidAssetOwner => "Invalid asset owner"
  | .lockedAsset => "Asset is locked"
  | .invalidAuthority => "Invalid authority"
  | .immutableAsset => "Immutable asset"
  | .cannotTransferSoulbound => "Soulbound assets are non-transferable"
  | .extensionDataInvalid => "Extension data invalid"
  | .invalidGroup => "Invalid group"
  | .assertionFailure => "Assertion Failure"
  | .groupNotEmpty => "Group is not empty"
  | .alreadyInGroup => "Asset is already in a group"
  | .extensionLengthInvalid => "Extension length invalid"

/-- `From<ProgramError> for u64` of solana-program: what the entrypoint returns to the runtime for an
error. `Custom(0)` has a value of its own, since 0 means success. Not repository code; the errors of
the hooks (`types`) do not leave the program, and the last group does not return. -/
def Err.returned : Err → Option Nat
  | .asset e => some (if e.code = 0 then 1 * 2 ^ 32 else e.code)
  | .invalidArgument => some (2 * 2 ^ 32)
  | .invalidInstructionData => some (3 * 2 ^ 32)
  | .invalidAccountData => some (4 * 2 ^ 32)
  | .accountDataTooSmall => some (5 * 2 ^ 32)
  | .incorrectProgramId => some (7 * 2 ^ 32)
  | .missingRequiredSignature => some (8 * 2 ^ 32)
  | .notEnoughAccountKeys => some (11 * 2 ^ 32)
  | .accountBorrowFailed => some (12 * 2 ^ 32)
  | .invalidSeeds => some (14 * 2 ^ 32)
  | .illegalOwner => some (18 * 2 ^ 32)
  | .invalidRealloc => some (20 * 2 ^ 32)
  | .types _ | .panic | .diverge | .oob | .undef | .cpi | .runtime => none

/-- `From<u64> for InstructionError` of the runtime: the custom code a client gets to see. Not
repository code. -/
def customCode (n : Nat) : Option Nat :=
  if n = 2 ^ 32 then some 0
  else if n ≠ 0 ∧ n < 2 ^ 32 then some n
  else none

/-! ## The Rust client -/

/-- A variant of the error type of a Rust client: number, name and message. -/
structure RustError where
  code : Nat
  name : String
  message : String
  deriving DecidableEq, Repr

/-- `AssetError` of the Rust client — clients/rust/asset/src/generated/errors/asset.rs:11-78. -/
def rustAssetErrors : List RustError :=
  [⟨0, "AlreadyInitialized", "Asset already initialized"⟩,
   ⟨1, "InvalidAccountLength", "Invalid account length"⟩,
   ⟨2, "IncompleteExtensionData", "Incomplete extension data"⟩,
   ⟨3, "Uninitialized", "Uninitialized account"⟩,
   ⟨4, "ExtensionNotFound", "Extension not found"⟩,
   ⟨5, "InvalidAlignment", "Invalid alignment"⟩,
   ⟨6, "InvalidBurnAuthority", "Invalid owner or burn delegate"⟩,
   ⟨7, "InvalidTransferAuthority", "Invalid owner or transfer delegate"⟩,
   ⟨8, "DelegateNotFound", "Delegate not found"⟩,
   ⟨9, "DelegateRoleNotActive", "Delegate role not active"⟩,
   ⟨10, "InvalidDelegate", "Invalid delegate"⟩,
   ⟨11, "InvalidAssetOwner", "Invalid asset owner"⟩,
   ⟨12, "LockedAsset", "Asset is locked"⟩,
   ⟨13, "InvalidAuthority", "Invalid authority"⟩,
   ⟨14, "ImmutableAsset", "Immutable asset"⟩,
   ⟨15, "CannotTransferSoulbound", "Soulbound assets are non-transferable"⟩,
   ⟨16, "ExtensionDataInvalid", "Extension data invalid"⟩,
   ⟨17, "InvalidGroup", "Invalid group"⟩,
   ⟨18, "AssertionFailure", "Assertion Failure"⟩,
   ⟨19, "GroupNotEmpty", "Group is not empty"⟩,
   ⟨20, "AlreadyInGroup", "Asset is already in a group"⟩,
   ⟨21, "ExtensionLengthInvalid", "Extension length invalid"⟩]

/-- `FromPrimitive::from_u32` of num-derive: the variant with this number. -/
def rustAssetError (n : Nat) : Option RustError := rustAssetErrors.find? (·.code = n)

/-! ## The JavaScript clients -/

/-- An instance of an error class of a JavaScript client. -/
structure JsError where
  name : String
  code : Nat
  message : String
  deriving DecidableEq, Repr

/-- `Map.get` after a sequence of `Map.set`: the last entry counts. -/
def mapGet {κ α : Type} [DecidableEq κ] (m : List (κ × α)) (k : κ) : Option α :=
  (m.reverse.find? (·.1 = k)).map (·.2)

/-- `codeToErrorMap` — clients/js/asset/src/generated/errors/asset.ts:15-302. -/
def jsAssetCodes : List (Nat × JsError) :=
  [(0, ⟨"AlreadyInitialized", 0, "Asset already initialized"⟩),
   (1, ⟨"InvalidAccountLength", 1, "Invalid account length"⟩),
   (2, ⟨"IncompleteExtensionData", 2, "Incomplete extension data"⟩),
   (3, ⟨"Uninitialized", 3, "Uninitialized account"⟩),
   (4, ⟨"ExtensionNotFound", 4, "Extension not found"⟩),
   (5, ⟨"InvalidAlignment", 5, "Invalid alignment"⟩),
   (6, ⟨"InvalidBurnAuthority", 6, "Invalid owner or burn delegate"⟩),
   (7, ⟨"InvalidTransferAuthority", 7, "Invalid owner or transfer delegate"⟩),
   (8, ⟨"DelegateNotFound", 8, "Delegate not found"⟩),
   (9, ⟨"DelegateRoleNotActive", 9, "Delegate role not active"⟩),
   (10, ⟨"InvalidDelegate", 10, "Invalid delegate"⟩),
   (11, ⟨"InvalidAssetOwner", 11, "Invalid asset owner"⟩),
   (12, ⟨"LockedAsset", 12, "Asset is locked"⟩),
   (13, ⟨"InvalidAuthority", 13, "Invalid authority"⟩),
   (14, ⟨"ImmutableAsset", 14, "Immutable asset"⟩),
   (15, ⟨"CannotTransferSoulbound", 15, "Soulbound assets are non-transferable"⟩),
   (16, ⟨"ExtensionDataInvalid", 16, "Extension data invalid"⟩),
   (17, ⟨"InvalidGroup", 17, "Invalid group"⟩),
   (18, ⟨"AssertionFailure", 18, "Assertion Failure"⟩),
   (19, ⟨"GroupNotEmpty", 19, "Group is not empty"⟩),
   (20, ⟨"AlreadyInGroup", 20, "Asset is already in a group"⟩),
   (21, ⟨"ExtensionLengthInvalid", 21, "Extension length invalid"⟩)]

/-- `nameToErrorMap` — clients/js/asset/src/generated/errors/asset.ts:16-302. -/
def jsAssetNames : List (String × JsError) :=
  [("AlreadyInitialized", ⟨"AlreadyInitialized", 0, "Asset already initialized"⟩),
   ("InvalidAccountLength", ⟨"InvalidAccountLength", 1, "Invalid account length"⟩),
   ("IncompleteExtensionData", ⟨"IncompleteExtensionData", 2, "Incomplete extension data"⟩),
   ("Uninitialized", ⟨"Uninitialized", 3, "Uninitialized account"⟩),
   ("ExtensionNotFound", ⟨"ExtensionNotFound", 4, "Extension not found"⟩),
   ("InvalidAlignment", ⟨"InvalidAlignment", 5, "Invalid alignment"⟩),
   ("InvalidBurnAuthority", ⟨"InvalidBurnAuthority", 6, "Invalid owner or burn delegate"⟩),
   ("InvalidTransferAuthority", ⟨"InvalidTransferAuthority", 7, "Invalid owner or transfer delegate"⟩),
   ("DelegateNotFound", ⟨"DelegateNotFound", 8, "Delegate not found"⟩),
   ("DelegateRoleNotActive", ⟨"DelegateRoleNotActive", 9, "Delegate role not active"⟩),
   ("InvalidDelegate", ⟨"InvalidDelegate", 10, "Invalid delegate"⟩),
   ("InvalidAssetOwner", ⟨"InvalidAssetOwner", 11, "Invalid asset owner"⟩),
   ("LockedAsset", ⟨"LockedAsset", 12, "Asset is locked"⟩),
   ("InvalidAuthority", ⟨"InvalidAuthority", 13, "Invalid authority"⟩),
   ("ImmutableAsset", ⟨"ImmutableAsset", 14, "Immutable asset"⟩),
   ("CannotTransferSoulbound", ⟨"CannotTransferSoulbound", 15, "Soulbound assets are non-transferable"⟩),
   ("ExtensionDataInvalid", ⟨"ExtensionDataInvalid", 16, "Extension data invalid"⟩),
   ("InvalidGroup", ⟨"InvalidGroup", 17, "Invalid group"⟩),
   ("AssertionFailure", ⟨"AssertionFailure", 18, "Assertion Failure"⟩),
   ("GroupNotEmpty", ⟨"GroupNotEmpty", 19, "Group is not empty"⟩),
   ("AlreadyInGroup", ⟨"AlreadyInGroup", 20, "Asset is already in a group"⟩),
   ("ExtensionLengthInvalid", ⟨"ExtensionLengthInvalid", 21, "Extension length invalid"⟩)]

/-- `getAssetErrorFromCode` — clients/js/asset/src/generated/errors/asset.ts:308-315. -/
def jsAssetError (code : Nat) : Option JsError := mapGet jsAssetCodes code

/-- `getAssetErrorFromName` — clients/js/asset/src/generated/errors/asset.ts:321-328. -/
def jsAssetErrorNamed (name : String) : Option JsError := mapGet jsAssetNames name

/-- `codeToErrorMap` — clients/js/bridge/src/generated/errors/bridge.ts:15-42. -/
def jsBridgeCodes : List (Nat × JsError) :=
  [(0, ⟨"InvalidMint", 0, "Invalid mint account"⟩),
   (1, ⟨"InvalidAuthority", 1, "Invalid authority account"⟩)]

/-- `codeToErrorMap` — clients/js/proxy/src/generated/errors/proxy.ts:15-42. -/
def jsProxyCodes : List (Nat × JsError) :=
  [(0, ⟨"InvalidMint", 0, "Invalid mint account"⟩),
   (1, ⟨"InvalidAuthority", 1, "Invalid authority account"⟩)]

/-- `getBridgeErrorFromCode` — clients/js/bridge/src/generated/errors/bridge.ts:48-55. -/
def jsBridgeError (code : Nat) : Option JsError := mapGet jsBridgeCodes code

/-- `getProxyErrorFromCode` — clients/js/proxy/src/generated/errors/proxy.ts:48-55. -/
def jsProxyError (code : Nat) : Option JsError := mapGet jsProxyCodes code

/-! ## The interface descriptions -/

/-- `errors` — idls/asset_program.json. -/
def idlErrors : List RustError :=
  [⟨0, "AlreadyInitialized", "Asset already initialized"⟩,
   ⟨1, "InvalidAccountLength", "Invalid account length"⟩,
   ⟨2, "IncompleteExtensionData", "Incomplete extension data"⟩,
   ⟨3, "Uninitialized", "Uninitialized account"⟩,
   ⟨4, "ExtensionNotFound", "Extension not found"⟩,
   ⟨5, "InvalidAlignment", "Invalid alignment"⟩,
   ⟨6, "InvalidBurnAuthority", "Invalid owner or burn delegate"⟩,
   ⟨7, "InvalidTransferAuthority", "Invalid owner or transfer delegate"⟩,
   ⟨8, "DelegateNotFound", "Delegate not found"⟩,
   ⟨9, "DelegateRoleNotActive", "Delegate role not active"⟩,
   ⟨10, "InvalidDelegate", "Invalid delegate"⟩,
   ⟨11, "InvalidAssetOwner", "Invalid asset owner"⟩,
   ⟨12, "LockedAsset", "Asset is locked"⟩,
   ⟨13, "InvalidAuthority", "Invalid authority"⟩,
   ⟨14, "ImmutableAsset", "Immutable asset"⟩,
   ⟨15, "CannotTransferSoulbound", "Soulbound assets are non-transferable"⟩,
   ⟨16, "ExtensionDataInvalid", "Extension data invalid"⟩,
   ⟨17, "InvalidGroup", "Invalid group"⟩,
   ⟨18, "AssertionFailure", "Assertion Failure"⟩,
   ⟨19, "GroupNotEmpty", "Group is not empty"⟩,
   ⟨20, "AlreadyInGroup", "Asset is already in a group"⟩,
   ⟨21, "ExtensionLengthInvalid", "Extension length invalid"⟩]

/-- `errors` — idls/asset-program.codama.json; the names begin with a small letter. -/
def codamaErrors : List RustError :=
  [⟨0, "alreadyInitialized", "Asset already initialized"⟩,
   ⟨1, "invalidAccountLength", "Invalid account length"⟩,
   ⟨2, "incompleteExtensionData", "Incomplete extension data"⟩,
   ⟨3, "uninitialized", "Uninitialized account"⟩,
   ⟨4, "extensionNotFound", "Extension not found"⟩,
   ⟨5, "invalidAlignment", "Invalid alignment"⟩,
   ⟨6, "invalidBurnAuthority", "Invalid owner or burn delegate"⟩,
   ⟨7, "invalidTransferAuthority", "Invalid owner or transfer delegate"⟩,
   ⟨8, "delegateNotFound", "Delegate not found"⟩,
   ⟨9, "delegateRoleNotActive", "Delegate role not active"⟩,
   ⟨10, "invalidDelegate", "Invalid delegate"⟩,
   ⟨11, "invalidAssetOwner", "Invalid asset owner"⟩,
   ⟨12, "lockedAsset", "Asset is locked"⟩,
   ⟨13, "invalidAuthority", "Invalid authority"⟩,
   ⟨14, "immutableAsset", "Immutable asset"⟩,
   ⟨15, "cannotTransferSoulbound", "Soulbound assets are non-transferable"⟩,
   ⟨16, "extensionDataInvalid", "Extension data invalid"⟩,
   ⟨17, "invalidGroup", "Invalid group"⟩,
   ⟨18, "assertionFailure", "Assertion Failure"⟩,
   ⟨19, "groupNotEmpty", "Group is not empty"⟩,
   ⟨20, "alreadyInGroup", "Asset is already in a group"⟩,
   ⟨21, "extensionLengthInvalid", "Extension length invalid"⟩]

end Verif
