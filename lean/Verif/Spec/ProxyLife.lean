import Verif.Spec.ProxyAsset
import Verif.Spec.Edits
import Verif.Spec.Moves

/-!
# The life of an asset of the proxy program
-/

namespace Verif.Spec

open Verif

/-- The number of transfers as text: at least twelve characters. -/
def countText (n : Nat) : Bytes := padLeft 12 (formatI64 n)

/-- The proxied asset `A` of the account `asset` has been transferred `n` times: it is its own
authority, it can be changed, and it has the four extensions of the proxy program, with a picture of
`size` bytes, and nothing else. -/
structure Travelled (program assetId : Key) (L : Ledger) (asset stub authority : Key) (bump : UInt8) (size : Nat)
    (n : Nat) (A : Asset) : Prop where
  stores : Stores assetId L asset A
  tight : Tight L asset A
  standard : A.standard = 3
  own : A.authority = asset
  changeable : A.mutableByte ≠ 0
  exts : ∃ time image, time < 18446744073709551616 ∧ image.length = size ∧
    A.exts = proxiedExts program stub bump authority (countText n) time image

/-- The environment in which `o` alone signs and the account `asset` alone is writable. -/
def signedBy (E : Env) (L : Ledger) (asset o : Key) : Env :=
  { E with
    signer := fun x => x = o
    writable := fun x => x = asset
    origLen := fun x => (L x).data.length }

/-- The asset goes from hand to hand: the owner `o` transfers it to the first of the list, who
transfers it to the second, and so on. -/
def handOn (E : Env) (C : ProxyConsts) (asset : Key) : Ledger → Key → List Key → Except Err Ledger
  | L, _, [] => .ok L
  | L, o, r :: rs =>
    match proxyProcess (signedBy E L asset o) C L [asset, o, r, C.assetId, C.assetId] (encode .transfer) with
    | .ok L' => handOn E C asset L' r rs
    | .error e => .error e

end Verif.Spec
