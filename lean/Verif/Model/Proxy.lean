import Verif.Model.Interface

/-!
# The proxy program

programs/proxy/src/processor. It owns nothing: everything it does is a call of the asset program,
signed for the proxied asset.
-/

namespace Verif

/-! ## Decimal text -/

/-- The digits of a number, at most `fuel` of them. -/
def decimalDigits : Nat → Nat → Bytes
  | 0, _ => []
  | fuel + 1, n =>
    if n < 10 then [UInt8.ofNat (48 + n)]
    else decimalDigits fuel (n / 10) ++ [UInt8.ofNat (48 + n % 10)]

/-- `format!("{}", n)` of an `i64` (19 digits are enough). -/
def formatI64 (n : Int) : Bytes :=
  if n < 0 then 45 :: decimalDigits 20 n.natAbs else decimalDigits 20 n.natAbs

/-- `format!("{:>width$}", …)`: spaces on the left. -/
def padLeft (width : Nat) (s : Bytes) : Bytes := List.replicate (width - s.length) 32 ++ s

/-- The bytes of a leading white space character (Unicode `White_Space`, in UTF-8), if any. -/
def leadingSpace : Bytes → Option Bytes
  | 0xC2 :: b :: r => if b = 0x85 ∨ b = 0xA0 then some r else none
  | 0xE1 :: 0x9A :: 0x80 :: r => some r
  | 0xE2 :: 0x80 :: b :: r =>
    if (0x80 ≤ b ∧ b ≤ 0x8A) ∨ b = 0xA8 ∨ b = 0xA9 ∨ b = 0xAF then some r else none
  | 0xE2 :: 0x81 :: 0x9F :: r => some r
  | 0xE3 :: 0x80 :: 0x80 :: r => some r
  | a :: r => if (9 ≤ a ∧ a ≤ 13) ∨ a = 32 then some r else none
  | [] => none

/-- The same at the end; the argument is reversed. -/
def trailingSpace : Bytes → Option Bytes
  | b :: 0xC2 :: r => if b = 0x85 ∨ b = 0xA0 then some r else none
  | 0x80 :: 0x9A :: 0xE1 :: r => some r
  | 0x9F :: 0x81 :: 0xE2 :: r => some r
  | 0x80 :: 0x80 :: 0xE3 :: r => some r
  | b :: 0x80 :: 0xE2 :: r =>
    if (0x80 ≤ b ∧ b ≤ 0x8A) ∨ b = 0xA8 ∨ b = 0xA9 ∨ b = 0xAF then some r else none
  | a :: r => if (9 ≤ a ∧ a ≤ 13) ∨ a = 32 then some r else none
  | [] => none

/-- Strip characters while there are any; every step removes at least one byte. -/
def stripWhile (f : Bytes → Option Bytes) : Nat → Bytes → Bytes
  | 0, s => s
  | fuel + 1, s =>
    match f s with
    | some r => stripWhile f fuel r
    | none => s

/-- `str::trim`. -/
def trim (s : Bytes) : Bytes :=
  let s := stripWhile leadingSpace s.length s
  (stripWhile trailingSpace s.length s.reverse).reverse

/-- The value of decimal digits. -/
def digitsValue : Nat → Bytes → Option Nat
  | acc, [] => some acc
  | acc, b :: r => if 48 ≤ b ∧ b ≤ 57 then digitsValue (acc * 10 + (b.toNat - 48)) r else none

/-- An optional sign and at least one digit. -/
def signedValue : Bytes → Option Int
  | [] => none
  | 43 :: r => if r.isEmpty then none else (digitsValue 0 r).map fun n => (n : Int)
  | 45 :: r => if r.isEmpty then none else (digitsValue 0 r).map fun n => -(n : Int)
  | r => (digitsValue 0 r).map fun n => (n : Int)

/-- `str::parse::<i64>()`: out of range is an error. -/
def parseI64 (s : Bytes) : Option Int :=
  match signedValue s with
  | some n => if -9223372036854775808 ≤ n ∧ n ≤ 9223372036854775807 then some n else none
  | none => none

/-- `current + 1` on an `i64`, wrapping (release profile without overflow checks). -/
def nextI64 (n : Int) : Int := if n = 9223372036854775807 then -9223372036854775808 else n + 1

/-! ## Constants and environment -/

/-- `"transfers"`. -/
def sTransfers : Bytes := [116, 114, 97, 110, 115, 102, 101, 114, 115]

/-- `"last_transferred"`. -/
def sLastTransferred : Bytes :=
  [108, 97, 115, 116, 95, 116, 114, 97, 110, 115, 102, 101, 114, 114, 101, 100]

/-- `CONTENT_TYPE`, `"image/svg+xml"` — processor/mod.rs:16. -/
def sContentType : Bytes := [105, 109, 97, 103, 101, 47, 115, 118, 103, 43, 120, 109, 108]

/-- What the proxy program takes from elsewhere.

* `assetId`: the id of the asset program.
* `image rgb`: `IMAGE.replace("{#RGB#}", rgb)` for the file image.svg.
* `hash`: `keccak::hashv` of the concatenation.
* `timestamp`: `Clock::get()?.unix_timestamp`. -/
structure ProxyConsts where
  assetId : Key
  image : Bytes → Bytes
  hash : Bytes → Bytes
  timestamp : Int

/-- An `i64` as a `u64` (`as u64`), also for `to_le_bytes`. -/
def asU64 (n : Int) : Nat := (n % 18446744073709551616).toNat

/-! ## Processors -/

/-- `fetch_proxy_data!` with the asset program among the remaining accounts —
interface/src/processor.rs:41-50. -/
def fetchProxyWith (C : ProxyConsts) (d : Bytes) (remaining : List Key) : Except Err Proxy := do
  let x ← fetchProxy d
  require (C.assetId ∈ remaining) .notEnoughAccountKeys
  return x

/-- `UpdateCpiBuilder` with asset and authority only —
interface/src/generated/instructions/update.rs:230-320. -/
def callUpdate (E : Env) (C : ProxyConsts) (signer : Key) (L : Ledger) (asset : Key)
    (x : UpdateInput) : Except Err Ledger :=
  invokeAsset E C.assetId [signer] L
    [⟨asset, true, true⟩, ⟨asset, true, false⟩, ⟨C.assetId, false, false⟩,
      ⟨C.assetId, false, false⟩, ⟨C.assetId, false, false⟩, ⟨C.assetId, false, false⟩]
    (encode (.update x))

/-- An inline extension, `length: data.len() as u32`. -/
def inlineExt (t : ExtType) (data : Bytes) : ExtInput := ⟨t, UInt32.ofNat data.length, some data⟩

/-- The comparison with the "proxy" authority — processor/update.rs:31-42. -/
def proxyAuthorityIs (p : Proxy) (authority : Key) : Except Err Unit :=
  match nullable p.authority with
  | some a => require (authority = a) .invalidArgument
  | none => .error .invalidArgument

/-- `process_update` — processor/update.rs:8-71. -/
def proxyUpdate (E : Env) (C : ProxyConsts) (L : Ledger) (asset authority : Key)
    (remaining : List Key) (x : UpdateInput) : Except Err Ledger := do
  let p ← fetchProxyWith C (L asset).data remaining
  require (E.signer authority = true) .missingRequiredSignature
  proxyAuthorityIs p authority
  let signer ← proxySigner E p
  callUpdate E C signer L asset { x with extension := none }

/-- The transfer counter of an asset — processor/transfer.rs:36-45; a missing extension
panics. -/
def transferCount (d : Bytes) : Except Err Int := do
  match ← assetGet .attributes d with
  | none => .error .panic
  | some b => do
    let values ← readPairList b
    match parseI64 (trim ((attributesGet values sTransfers).getD [48])) with
    | some n => return n
    | none => .error .invalidAccountData

/-- `"{:>3},{:>3},{:>3}"` of three bytes. -/
def rgbText (h : Bytes) : Bytes :=
  padLeft 3 (decimalDigits 3 (byteAt h 0).toNat) ++ [44] ++
  padLeft 3 (decimalDigits 3 (byteAt h 1).toNat) ++ [44] ++
  padLeft 3 (decimalDigits 3 (byteAt h 2).toNat)

/-- The new attributes — processor/transfer.rs:49-51. -/
def counterData (n : Int) : Bytes := pairsBuilderAdd [] sTransfers (padLeft 12 (formatI64 n))

/-- The new image — processor/transfer.rs:65-88. -/
def imageData (C : ProxyConsts) (asset : Key) (current : Int) : Bytes :=
  blobBuilderSet sContentType
    (C.image (rgbText (C.hash (asset.1 ++ toLE 8 (asU64 C.timestamp) ++ toLE 8 (asU64 current)))))

/-- The new properties — processor/transfer.rs:102-104. -/
def stampData (C : ProxyConsts) : Bytes :=
  propsBuilderAdd [] sLastTransferred (.number (asU64 C.timestamp))

/-- `process_transfer` — processor/transfer.rs:16-123. -/
def proxyTransfer (E : Env) (C : ProxyConsts) (L : Ledger) (asset signer recipient : Key)
    (remaining : List Key) : Except Err Ledger := do
  let p ← fetchProxyWith C (L asset).data remaining
  let current ← transferCount (L asset).data
  let pda ← proxySigner E p
  let L1 ← callUpdate E C pda L asset
    ⟨none, none, some (inlineExt .attributes (counterData (nextI64 current)))⟩
  let L2 ← callUpdate E C pda L1 asset
    ⟨none, none, some (inlineExt .blob (imageData C asset current))⟩
  let L3 ← callUpdate E C pda L2 asset ⟨none, none, some (inlineExt .properties (stampData C))⟩
  invokeAsset E C.assetId [pda] L3
    [⟨asset, true, true⟩, ⟨signer, true, false⟩, ⟨recipient, false, false⟩,
      ⟨C.assetId, false, false⟩]
    (encode .transfer)

/-- `Pubkey::find_program_address`: the first bump seed from 255 down that gives an address;
panics when there is none. -/
def findPda (E : Env) (seeds : Bytes) : Nat → Except Err (Key × UInt8)
  | 0 => .error .panic
  | n + 1 =>
    match E.pda seeds (UInt8.ofNat (n + 1)) E.program with
    | some k => .ok (k, UInt8.ofNat (n + 1))
    | none => findPda E seeds n

/-- The meta of an optional account, the program id standing for none. -/
def optMeta (C : ProxyConsts) (o : Option Key) (signer writable : Bool) : Meta :=
  match o with
  | some k => ⟨k, signer, writable⟩
  | none => ⟨C.assetId, false, false⟩

/-- The extensions of a new proxied asset — processor/create.rs:52-101. -/
def proxyExtensions (E : Env) (C : ProxyConsts) (stub authority : Key) (bump : UInt8) :
    List ExtInput :=
  [inlineExt .attributes (counterData 0),
    inlineExt .blob (blobBuilderSet sContentType
      (C.image [48, 48, 48, 44, 48, 48, 48, 44, 48, 48, 48])),
    inlineExt .proxy (proxyBuilderSet E.program stub bump (some authority)),
    inlineExt .properties (stampData C)]

/-- `process_create` — processor/create.rs:23-115. -/
def proxyCreate (E : Env) (C : ProxyConsts) (L : Ledger) (asset stub owner authority : Key)
    (payer sys : Option Key) (name : Bytes) : Except Err Ledger := do
  require (E.signer authority = true) .missingRequiredSignature
  require (E.signer stub = true) .missingRequiredSignature
  let (derived, bump) ← findPda E stub.1 255
  require (derived = asset) .invalidSeeds
  invokeAsset E C.assetId [derived] L
    [⟨asset, true, true⟩, ⟨asset, true, false⟩, ⟨owner, false, false⟩,
      ⟨C.assetId, false, false⟩, ⟨C.assetId, false, false⟩, optMeta C payer true true,
      optMeta C sys false false]
    (encode (.create ⟨name, .proxied, true, some (proxyExtensions E C stub authority bump)⟩))

/-- `Instruction::try_from_slice` of the proxy program, `Create(Metadata)` — instruction.rs. -/
def decodeProxyCreate (bs : Bytes) : Option Bytes :=
  match readU8 bs with
  | some (0, r) =>
    match readString r with
    | some (name, []) => some name
    | _ => none
  | _ => none

/-- `process_instruction` — processor/mod.rs:18-64. The account lists are those of
instruction.rs and of the interface; an optional account is absent when the id of the program
(`crate::ID`: the proxy program for its own Create) is in its place. -/
def proxyProcess (E : Env) (C : ProxyConsts) (L : Ledger) (accts : List Key) (data : Bytes) :
    Except Err Ledger :=
  match decodeProxyCreate data with
  | some name =>
    match accts with
    | asset :: stub :: owner :: authority :: payer :: sys :: _ :: _ =>
      proxyCreate E C L asset stub owner authority (optAcc E payer) (optAcc E sys) name
    | _ => .error .notEnoughAccountKeys
  | none =>
    match decode data with
    | some .transfer =>
      match accts with
      | asset :: signer :: recipient :: _ :: remaining =>
        proxyTransfer E C L asset signer recipient remaining
      | _ => .error .notEnoughAccountKeys
    | some (.update x) =>
      match accts with
      | asset :: authority :: _ :: _ :: _ :: _ :: remaining =>
        proxyUpdate E C L asset authority remaining x
      | _ => .error .notEnoughAccountKeys
    | _ => interfaceProcess E C.assetId L accts data

end Verif
