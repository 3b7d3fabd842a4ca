import Verif.Model.RustAsset
import Verif.Spec.Js

/-!
# What the Rust client should read
-/

namespace Verif.Spec

open Verif

/-- The header as the client shows it. -/
def rustShown (A : AssetView) (s : Standard) : RustAsset :=
  ⟨A.disc.toNat, A.state.toNat, s, podTrue A.mutableByte, A.owner, shownKey A.group, A.authority,
    shownKey A.delegate, shownRoles A.roles, A.name⟩

/-- Both texts of a pair are UTF-8. -/
def goodPair (x : Bytes × Bytes) : Bool := validUtf8 x.1 && validUtf8 x.2

/-- A creator as the client shows it. -/
def rustCreator (c : Creator) : Key × Bool × UInt8 := (c.address, podTrue c.verified, c.share)

/-- The client takes the byte for a `bool`. -/
def goodCreator (c : Creator) : Bool := c.verified = 0 || c.verified = 1

end Verif.Spec
