import Verif.Spec.Birth
import Verif.Spec.Readable
import Verif.Model.Proxy

/-!
# The assets of the proxy program
-/

namespace Verif.Spec

open Verif

/-- The extensions of a proxied asset, in the order in which they are stored: `count` is the text of
the counter of transfers, `time` the last transfer as a 64-bit number, `image` a picture. -/
def proxiedExts (program stub : Key) (bump : UInt8) (authority : Key) (count : Bytes) (time : Nat)
    (image : Bytes) : List Extn :=
  [(.attributes, prefixed [116, 114, 97, 110, 115, 102, 101, 114, 115] ++ prefixed count),
    (.properties, prefixed [108, 97, 115, 116, 95, 116, 114, 97, 110, 115, 102, 101, 114, 114, 101, 100] ++
      1 :: toLE 8 time),
    (.proxy, program.1 ++ stub.1 ++ [bump] ++ authority.1),
    (.blob, prefixed [105, 109, 97, 103, 101, 47, 115, 118, 103, 43, 120, 109, 108] ++ image)]

/-- The asset is its own authority. -/
def proxiedAsset (asset owner : Key) (name : Bytes) (es : List Extn) : Asset :=
  { state := 0, standard := 3, mutableByte := 1, owner := owner, group := Key.default,
    authority := asset, delegate := Key.default, roles := 0, name := storedName name, exts := es }

/-- `b` is the first bump seed from 255 down to 1 that gives an address, and the address is `k`. -/
def Canonical (E : Env) (seeds : Bytes) (k : Key) (b : UInt8) : Prop :=
  1 ≤ b.toNat ∧ E.pda seeds b E.program = some k ∧
    ∀ c : UInt8, b.toNat < c.toNat → E.pda seeds c E.program = none

/-- The picture of the asset when it is created. -/
def firstImage (C : ProxyConsts) : Bytes := C.image [48, 48, 48, 44, 48, 48, 48, 44, 48, 48, 48]

/-- The extensions when the asset is created: no transfers. -/
def firstExts (E : Env) (C : ProxyConsts) (stub authority : Key) (bump : UInt8) : List Extn :=
  proxiedExts E.program stub bump authority [32, 32, 32, 32, 32, 32, 32, 32, 32, 32, 32, 48]
    (asU64 C.timestamp) (firstImage C)

end Verif.Spec
