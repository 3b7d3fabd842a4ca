import Verif.Model.Proxy
import Verif.Model.BridgeClient
import Verif.Model.JsCalls

/-!
# The JavaScript client of the proxy program

clients/js/proxy/src. There is no Rust client of this program.
-/

namespace Verif

/-- `CreateInstructionAccounts` and the argument `name` — generated/instructions/create.ts:33-57. -/
structure JsProxyCreate where
  asset : Option Key := none
  stub : Key
  owner : Key
  authority : Option Key := none
  payer : Option Key := none
  sys : Option Key := none
  assetProgram : Option Key := none
  name : Bytes

/-- `findProxiedAssetPda` — pda.ts:4-18 (the proxy program is `E.program`). -/
def jsProxiedAsset (E : Env) (stub : Key) : Except Err Key := jsFindPda E stub.1

/-- `create` — generated/instructions/create.ts:84-192, with `resolveProxiedAsset` of
hooked/resolvers.ts:5-21. The authority defaults to the identity; the payer has no default, and the
system program is filled in only when there is a payer. `assetId` is the id of the asset program
in the context. -/
def jsProxyCreate (E : Env) (assetId : Key) (ctx : JsContext) (x : JsProxyCreate) :
    Except Err ClientIx := do
  let asset ← orElse x.asset (jsProxiedAsset E x.stub)
  let sys := x.sys.or (if x.payer.isSome then some Key.system else none)
  let name ← jsPutBytes x.name
  return ⟨jsMetas E.program
    [⟨jsAddress asset, true⟩, ⟨jsSigner x.stub, false⟩, ⟨jsAddress x.owner, false⟩,
      ⟨jsSigner (x.authority.getD ctx.identity), false⟩, ⟨x.payer.bind jsSigner, true⟩,
      ⟨sys.bind jsAddress, false⟩, ⟨jsAddress (x.assetProgram.getD assetId), false⟩], [0] ++ name⟩

end Verif
