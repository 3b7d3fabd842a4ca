import Verif.Model.Mint
import Verif.Model.Extensions

/-!
# Extension values from JSON

The part of clients/rust/asset/src/mint.rs that turns a JSON description into extension data.
Reading JSON itself (serde) is not modelled; the content of a blob file is given.
-/

namespace Verif

/-- `RoyaltiesKind` — mint.rs:283-286. -/
inductive RoyaltiesKind
  | allowlist
  | denylist
  deriving DecidableEq, Repr

/-- `ExtensionValue` — mint.rs:75-86, with the structs at 112-121, 142-148, 166-172, 190-196,
214-221, 245-254. -/
inductive JsonValue
  | creators (l : List (Key × Bool × UInt8))
  | attributes (l : List (Bytes × Bytes))
  | links (l : List (Bytes × Bytes))
  | blob (contentType file : Bytes)
  | metadata (symbol description uri : Bytes)
  | royalties (kind : RoyaltiesKind) (basisPoints : UInt64) (items : List Key)

/-- `data.push(bytes.len() as u8); data.extend(bytes)`. -/
def jsonStr (s : Bytes) : Bytes := [UInt8.ofNat s.length] ++ s

/-- `JsonCreator::into_data` — mint.rs:126-131. -/
def jsonCreator (c : Key × Bool × UInt8) : Bytes := c.1.1 ++ [if c.2.1 then 1 else 0, c.2.2]

/-- `JsonAttribute::into_data`, `JsonLink::into_data` — mint.rs:151-163, 175-187. -/
def jsonPair (p : Bytes × Bytes) : Bytes := jsonStr p.1 ++ jsonStr p.2

/-- `JsonRoyalties::into_data` — mint.rs:257-279. `Account::Asset` is selector 0. -/
def jsonConstraint (kind : RoyaltiesKind) (items : List Key) : Cst :=
  match kind with
  | .allowlist => .pubkeyMatch 0 items
  | .denylist => .not (.ownedBy 0 items)

/-- `ExtensionValue::into_data` — mint.rs:88-108, with `JsonBlob` (199-211) and `JsonMetadata`
(224-242). -/
def JsonValue.data : JsonValue → Bytes
  | .creators l => l.foldl (fun acc c => acc ++ jsonCreator c) []
  | .attributes l => l.foldl (fun acc p => acc ++ jsonPair p) []
  | .links l => l.foldl (fun acc p => acc ++ jsonPair p) []
  | .blob contentType file => jsonStr contentType ++ file
  | .metadata symbol description uri => jsonStr symbol ++ jsonStr description ++ jsonStr uri
  | .royalties kind bp items => toLE 8 bp.toNat ++ buildC (jsonConstraint kind items)

end Verif
