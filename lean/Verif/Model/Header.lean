import Verif.Model.Base

/-!
# The asset header

programs/asset/types/src/state/asset.rs:34-79 (`Asset`, `#[repr(C)]`, no padding):

| bytes | field |
|---|---|
| 0 | discriminator |
| 1 | state |
| 2 | standard |
| 3 | mutable (`PodBool`) |
| 4..36 | owner |
| 36..68 | group (`PodOption<NullablePubkey>`) |
| 68..100 | authority |
| 100..132 | delegate address |
| 132 | delegate roles |
| 133..168 | name (`PodStr<35>`) |
-/

namespace Verif

/-- `Asset::LEN` — types/src/state/asset.rs:78. -/
def assetLen : Nat := 168

/-- `Extension::LEN` — types/src/extensions/mod.rs:67. -/
def extLen : Nat := 16

/-- `Discriminator` as stored — types/src/state/mod.rs:14-39. -/
def discUninit : UInt8 := 0
@[inherit_doc discUninit] def discAsset : UInt8 := 1

/-- `Standard` — types/src/state/mod.rs:46-87. -/
inductive Standard
  | nonFungible | managed | soulbound | proxied
  deriving DecidableEq, Repr

/-- `From<Standard> for u8` — types/src/state/mod.rs:78-87. -/
def Standard.toU8 : Standard → UInt8
  | .nonFungible => 0
  | .managed => 1
  | .soulbound => 2
  | .proxied => 3

/-- `State` as stored — types/src/state/mod.rs:93-118. -/
def stateUnlocked : UInt8 := 0
@[inherit_doc stateUnlocked] def stateLocked : UInt8 := 1

/-! ## Field access -/

/-- `asset.discriminator` -/
def hDisc (d : Bytes) : UInt8 := byteAt d 0
/-- `asset.state` -/
def hState (d : Bytes) : UInt8 := byteAt d 1
/-- `asset.standard` -/
def hStandard (d : Bytes) : UInt8 := byteAt d 2
/-- `asset.mutable` as a `bool`: any non-zero byte counts as `true`. -/
def hMutable (d : Bytes) : Bool := byteAt d 3 != 0
/-- `asset.owner` -/
def hOwner (d : Bytes) : Key := keyAt d 4
/-- `asset.group` (raw; none when it is the default key) -/
def hGroup (d : Bytes) : Key := keyAt d 36
/-- `asset.authority` -/
def hAuthority (d : Bytes) : Key := keyAt d 68
/-- `asset.delegate.address` (raw; none when it is the default key) -/
def hDelegate (d : Bytes) : Key := keyAt d 100
/-- `asset.delegate.roles` -/
def hRoles (d : Bytes) : UInt8 := byteAt d 132
/-- `asset.name` -/
def hName (d : Bytes) : Bytes := slice d 133 35

/-- stores to the header fields -/
def setByte (d : Bytes) (i : Nat) (b : UInt8) : Bytes := splice d i [b]
@[inherit_doc setByte] def setState (d : Bytes) (s : UInt8) : Bytes := setByte d 1 s
@[inherit_doc setByte] def setMutable (d : Bytes) (m : Bool) : Bytes :=
  setByte d 3 (if m then 1 else 0)
@[inherit_doc setByte] def setOwner (d : Bytes) (k : Key) : Bytes := splice d 4 k.1
@[inherit_doc setByte] def setGroup (d : Bytes) (k : Key) : Bytes := splice d 36 k.1
@[inherit_doc setByte] def setAuthority (d : Bytes) (k : Key) : Bytes := splice d 68 k.1
/-- `asset.delegate = Delegate { address, roles }` (33 contiguous bytes) -/
def setDelegate (d : Bytes) (k : Key) (roles : UInt8) : Bytes := splice d 100 (k.1 ++ [roles])
@[inherit_doc setByte] def setRoles (d : Bytes) (roles : UInt8) : Bytes := setByte d 132 roles

/-- `PodStr<35>::from(name)` (podded): the first 35 bytes, zero padded. -/
def podStr35 (name : Bytes) : Bytes := name.take 35 ++ zeros (35 - name.length)

@[inherit_doc setByte] def setName (d : Bytes) (name : Bytes) : Bytes :=
  splice d 133 (podStr35 name)

/-- `NullablePubkey`/`PodOption::value()`: the default key means none —
types/src/state/mod.rs:148-156. -/
def nullable (k : Key) : Option Key := if k = Key.default then none else some k

/-! ## Delegates -/

/-- `DelegateRole` — types/src/state/delegate.rs:89-97. -/
inductive Role
  | none | transfer | lock | burn
  deriving DecidableEq, Repr

/-- `DelegateRole::mask` — types/src/state/delegate.rs:99-106. -/
def Role.mask : Role → UInt8
  | .none => 0
  | .transfer => 1
  | .lock => 2
  | .burn => 4

/-- `Delegate` — types/src/state/delegate.rs:14-19. -/
structure Delegate where
  address : Key
  roles : UInt8
  deriving DecidableEq, Repr

/-- `Delegate::is_active` — types/src/state/delegate.rs:24-26. -/
def Delegate.isActive (x : Delegate) (r : Role) : Bool := x.roles &&& r.mask > 0

/-- `Delegate::ALL_ROLES_MASK` — types/src/state/delegate.rs:22. -/
def allRolesMask : UInt8 := 7

/-- `asset.delegate.value()`: `None` when the address is the default key —
types/src/state/delegate.rs:55-63. -/
def hDelegateValue (d : Bytes) : Option Delegate :=
  if hDelegate d = Key.default then none else some ⟨hDelegate d, hRoles d⟩

/-- `Delegate::decode_roles` — types/src/state/delegate.rs:40-52. -/
def decodeRoles (roles : UInt8) : List Role :=
  if roles = 0 then [Role.none]
  else (if roles &&& 1 > 0 then [Role.transfer] else [])
    ++ (if roles &&& 2 > 0 then [Role.lock] else [])
    ++ (if roles &&& 4 > 0 then [Role.burn] else [])

end Verif
