import Verif.Model.Header

/-!
# Client views of roles and keys

`DelegateRoles` and `NullablePublicKey` of the two clients — clients/rust/asset/src/hooked and
clients/js/asset/src/hooked.
-/

namespace Verif

/-- `NullablePublicKey::to_option` — clients/rust/asset/src/hooked/nullable_public_key.rs:8-16. -/
def clientKey (k : Key) : Option Key := if k = Key.default then none else some k

/-- `DelegateRoles::to_vec` — clients/rust/asset/src/hooked/delegate_roles.rs:8-12. -/
def clientRoles (roles : UInt8) : List Role := decodeRoles roles

/-- Writing roles into a delegate, `Delegate::enable` in a loop — types/src/state/delegate.rs:28-30,
and `process_approve` as a fold (processor/approve.rs:61). -/
def enableAll (rs : List Role) : UInt8 := rs.foldl (fun acc r => acc ||| r.mask) 0

/-- The number of a role in the generated JavaScript enum —
clients/js/asset/src/generated/types/delegateRole.ts. -/
def Role.number : Role → UInt32
  | .none => 0
  | .transfer => 1
  | .lock => 2
  | .burn => 3

/-- JavaScript `1 << (role - 1)`: 32-bit, the count taken modulo 32. -/
def jsBit (r : Role) : UInt32 := 1 <<< ((r.number - 1) &&& 31)

/-- Serialising roles — clients/js/asset/src/hooked/delegateRoles.ts:18-20. The `u8` serialiser
of umi throws (`none`) outside 0..255; a negative 32-bit number is above 2^31 here. -/
def jsEncodeRoles (rs : List Role) : Option UInt8 :=
  let m := rs.foldl (fun acc r => acc ||| jsBit r) 0
  if m ≤ 255 then some m.toUInt8 else Option.none

/-- Deserialising roles — clients/js/asset/src/hooked/delegateRoles.ts:21-31. -/
def jsDecodeRoles (b : UInt8) : List Role :=
  if b = 0 then [.none]
  else [Role.none, .transfer, .lock, .burn].filter fun r => b.toUInt32 &&& jsBit r ≠ 0

/-- Serialising a nullable key — clients/js/asset/src/hooked/nullablePublicKey.ts:17. -/
def jsEncodeKey : Option Key → Key
  | some k => k
  | none => Key.default

/-- Deserialising a nullable key — clients/js/asset/src/hooked/nullablePublicKey.ts:18. -/
def jsDecodeKey (k : Key) : Option Key := if k = Key.default then none else some k

end Verif
