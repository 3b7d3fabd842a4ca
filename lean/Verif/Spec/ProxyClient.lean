import Verif.Spec.Privileges
import Verif.Spec.ProxyAsset
import Verif.Model.Calls
import Verif.Model.ProxyClient

/-!
# What a request to create a proxied asset means
-/

namespace Verif.Spec

open Verif

/-- The accounts by name. -/
structure ProxyRequest where
  asset : Key
  stub : Key
  owner : Key
  authority : Key
  payer : Option Key
  sys : Option Key
  assetProgram : Key
  name : Bytes

/-- The accounts in the order of the program, with the privileges that it documents. -/
def ProxyRequest.metas (program : Key) (x : ProxyRequest) : List Meta :=
  [⟨x.asset, false, true⟩, ⟨x.stub, true, false⟩, ⟨x.owner, false, false⟩, ⟨x.authority, true, false⟩,
    metaOpt program (fun k => ⟨k, true, true⟩) x.payer,
    metaOpt program (fun k => ⟨k, false, false⟩) x.sys, ⟨x.assetProgram, false, false⟩]

/-- The instruction: the discriminator 0 and the name. -/
def ProxyRequest.build (program : Key) (x : ProxyRequest) : ClientIx :=
  ⟨x.metas program, 0 :: (toLE 4 x.name.length ++ x.name)⟩

/-- What the user of the JavaScript client asks for, with its defaults, for the asset `asset`. -/
def jsProxyRequest (assetId : Key) (ctx : JsContext) (asset : Key) (x : JsProxyCreate) : ProxyRequest :=
  { asset := asset, stub := x.stub, owner := x.owner, authority := x.authority.getD ctx.identity,
    payer := x.payer,
    sys := match x.sys, x.payer with
      | some s, _ => some s
      | none, some _ => some Key.system
      | none, none => none
    assetProgram := x.assetProgram.getD assetId, name := x.name }

end Verif.Spec
