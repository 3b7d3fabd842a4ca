import Verif.Model.Borsh
import Verif.Model.Client
import Verif.Model.Extensions

/-!
# Reading accounts with the Rust client

`InternalAsset::from_bytes` and the types of the extensions, generated code that derives
`BorshDeserialize` — clients/rust/asset/src/generated/{accounts/internal_asset.rs,types/*.rs} and
src/hooked/*.rs. There are no types for Royalties and Properties.

The crate `kaigan` is not in the sandbox. Its `U8PrefixString` is a length byte and that many bytes,
which must be UTF-8. Its `RemainderVec` reads values to the end of the input. What it does at a value
that cannot be read depends on the version: it fails (`strict`), or it is content with the values before.
Both are modelled.
-/

namespace Verif

/-- The header — internal_asset.rs:17-38. `group` and `delegate` are `NullablePublicKey`s, shown by
`to_option`, the roles by `to_vec` (hooked/nullable_public_key.rs:9-15, delegate_roles.rs:9-11). -/
structure RustAsset where
  discriminator : Nat
  state : Nat
  standard : Standard
  isMutable : Bool
  owner : Key
  group : Option Key
  authority : Key
  delegate : Option Key
  roles : List Role
  name : Bytes
  deriving DecidableEq

/-- `Pubkey`: 32 bytes. -/
def readKey : Reader Key := fun bs => do
  let (b, bs) ← readN 32 bs
  return (Key.ofBytes b, bs)

/-- `u64`. -/
def readU64 : Reader Nat := fun bs => do
  let (b, bs) ← readN 8 bs
  return (leNat b, bs)

/-- The tag of an enum of two values without data: `Discriminator`, `State` —
generated/types/{discriminator,state}.rs. -/
def twoValues : Nat → Option Nat
  | 0 => some 0
  | 1 => some 1
  | _ => none

/-- `InternalAsset::from_bytes` and `try_from` — internal_asset.rs:40-57. Bytes after the header are left
alone. -/
def rustAsset (bs : Bytes) : Option RustAsset := do
  let (disc, bs) ← readTag twoValues bs
  let (state, bs) ← readTag twoValues bs
  let (standard, bs) ← readTag Standard.ofTag bs
  let (isMutable, bs) ← readBool bs
  let (owner, bs) ← readKey bs
  let (group, bs) ← readKey bs
  let (authority, bs) ← readKey bs
  let (delegate, bs) ← readKey bs
  let (roles, bs) ← readU8 bs
  let (name, _) ← readN 35 bs
  return ⟨disc, state, standard, isMutable, owner, clientKey group, authority, clientKey delegate,
    clientRoles roles, name⟩

/-- `U8PrefixString`. -/
def readStr8 : Reader Bytes := fun bs => do
  let (n, bs) ← readU8 bs
  let (s, bs) ← readN n.toNat bs
  if validUtf8 s then return (s, bs) else none

/-- `RemainderVec<T>`. The fuel is the length of the input, as a value takes at least a byte. -/
def remainder {α : Type} (strict : Bool) (r : Reader α) : Nat → Bytes → Option (List α)
  | 0, _ => some []
  | fuel + 1, bs =>
    if bs.isEmpty then some []
    else match r bs with
      | none => if strict then none else some []
      | some (a, rest) => (remainder strict r fuel rest).map (a :: ·)

/-- `Trait` and `Link` — generated/types/{trait,link}.rs. -/
def readPair8 : Reader (Bytes × Bytes) := fun bs => do
  let (name, bs) ← readStr8 bs
  let (value, bs) ← readStr8 bs
  return ((name, value), bs)

/-- `Attributes` and `Links` — generated/types/{attributes,links}.rs. -/
def rustPairs (strict : Bool) (bs : Bytes) : Option (List (Bytes × Bytes)) :=
  remainder strict readPair8 bs.length bs

/-- `Blob` — generated/types/blob.rs. The remaining bytes are taken as they are. -/
def rustBlob (bs : Bytes) : Option (Bytes × Bytes) := readStr8 bs

/-- `Bucket` — generated/types/bucket.rs. -/
def rustBucket (bs : Bytes) : Option Bytes := some bs

/-- `Creator` — generated/types/creator.rs. -/
def readCreator8 : Reader (Key × Bool × UInt8) := fun bs => do
  let (address, bs) ← readKey bs
  let (verified, bs) ← readBool bs
  let (share, bs) ← readU8 bs
  return ((address, verified, share), bs)

/-- `Creators` — generated/types/creators.rs. -/
def rustCreators (strict : Bool) (bs : Bytes) : Option (List (Key × Bool × UInt8)) :=
  remainder strict readCreator8 bs.length bs

/-- `Grouping` — generated/types/grouping.rs. -/
def rustGrouping (bs : Bytes) : Option (Nat × Nat × Option Key) := do
  let (size, bs) ← readU64 bs
  let (maxSize, bs) ← readU64 bs
  let (delegate, _) ← readKey bs
  return (size, maxSize, clientKey delegate)

/-- `Manager` — generated/types/{manager,delegate}.rs. -/
def rustManager (bs : Bytes) : Option (Option Key × List Role) := do
  let (address, bs) ← readKey bs
  let (roles, _) ← readU8 bs
  return (clientKey address, clientRoles roles)

/-- `Metadata` — generated/types/metadata.rs. -/
def rustMetadata (bs : Bytes) : Option Metadata := do
  let (symbol, bs) ← readStr8 bs
  let (description, bs) ← readStr8 bs
  let (uri, bs) ← readStr8 bs
  let (image, _) ← readStr8 bs
  return ⟨symbol, description, uri, image⟩

/-- `Proxy` — generated/types/proxy.rs. -/
def rustProxy (bs : Bytes) : Option (Key × Bytes × UInt8 × Option Key) := do
  let (program, bs) ← readKey bs
  let (seeds, bs) ← readN 32 bs
  let (bump, bs) ← readU8 bs
  let (authority, _) ← readKey bs
  return (program, seeds, bump, clientKey authority)

end Verif
