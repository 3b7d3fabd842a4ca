import Verif.Model.JsMint
import Verif.Spec.JsWrites
import Verif.Spec.Mints

/-!
# What a mint with the JavaScript client should lead to
-/

namespace Verif.Spec

open Verif

/-- The extension a value is stored as. -/
def jsExtn (v : JsExt) : Extn := (v.type, rustWrites v)

/-- What the client shows of a value after the mint: the value itself, except that exactly the
authority is a verified creator. -/
def minted (authority : Key) (text : Bytes → Bytes) : JsExt → JsExt
  | .creators cs => .creators (cs.map fun c => ⟨c.address, c.address = authority, c.share⟩)
  | v => reread text v

/-- The program accepts the value for a new asset. -/
def MintAcceptable : JsExt → Prop
  | .creators cs => (cs.map (·.share)).sum % 256 = 100
  | .grouping size _ _ => size = 0
  | .royalties bp _ => bp ≤ 10000
  | _ => True

/-- Who the authority is when the input does not tell. -/
def JsMintArgs.authorityOr (x : JsMintArgs) (ctx : JsContext) : Key :=
  (x.authority.getD (ctx.identity, true)).1

/-- The asset the client shows after the mint. -/
def mintedAsset (text : Bytes → Bytes) (ctx : JsContext) (x : JsMintArgs) : JsAsset where
  state := 0
  standard := (x.standard.getD .nonFungible).toU8.toNat
  isMutable := x.isMutable.getD true
  owner := x.owner.getD ctx.identity
  group := x.group.bind shownKey
  authority := JsMintArgs.authorityOr x ctx
  delegate := none
  name := text (storedName x.name)
  extensions := x.extensions.map (minted (JsMintArgs.authorityOr x ctx) text)

end Verif.Spec
