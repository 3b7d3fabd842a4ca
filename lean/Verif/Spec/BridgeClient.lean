import Verif.Spec.Privileges
import Verif.Spec.Custody
import Verif.Model.BridgeClient

/-!
# What the requests of a client of the bridge mean
-/

namespace Verif.Spec

open Verif

/-- The processor of the request, with the accounts by name. -/
def bridgeMeant (E : Env) (C : BridgeConsts) (S : Chain) : BridgeCall → Except Err Chain
  | .bridge x => processBridge E C S x.asset x.vault x.owner x.mint x.metadata x.group
  | .create x _ _ col => do
    let L' ← processBridgeCreate E C S.ledger x col
    return ⟨L', S.holder⟩

/-- The optional account that the program looks at. -/
def bridgeOptional : BridgeCall → Option Key
  | .bridge x => x.group
  | .create x _ _ _ => x.collection

/-- The flag left to the caller of the client is set if the account signs. -/
def BridgeFlags (E : Env) : BridgeCall → Prop
  | .bridge _ => True
  | .create x signs _ _ => E.signer x.updateAuthority = true → signs = true

/-- A request of the JavaScript client with the defaults filled in. -/
def jsBridgeCall (T : TokenLibs) (ctx : JsContext) (asset vault : Key) (x : JsBridge) :
    BridgeCall :=
  let pnft (o : Option Key) (k : Key) : Option Key := if x.programmable then some (o.getD k) else o
  let token := x.token.getD (T.ata x.mint x.owner)
  let vaultToken := x.vaultToken.getD (T.ata x.mint vault)
  .bridge
    { asset := asset, vault := vault, owner := x.owner, token := token, mint := x.mint,
      metadata := x.metadata.getD (T.metadata x.mint),
      masterEdition := x.masterEdition.getD (T.edition x.mint),
      tokenRecord := pnft x.tokenRecord (T.record x.mint token), vaultToken := vaultToken,
      vaultTokenRecord := pnft x.vaultTokenRecord (T.record x.mint vaultToken),
      payer := x.payer.getD ctx.payer, assetProgram := x.assetProgram.getD T.assetProgram,
      metadataProgram := x.metadataProgram.getD T.metadataProgram, sys := x.sys.getD Key.system,
      sysvar := x.sysvar.getD T.sysvar, splToken := x.splToken.getD T.splToken,
      splAta := x.splAta.getD T.splAta, rulesProgram := pnft x.rulesProgram T.rulesProgram,
      rules := x.rules, group := x.group }

/-- The same for Create. -/
def jsBridgeCreateCall (T : TokenLibs) (ctx : JsContext) (asset vault : Key) (x : JsBridgeCreate) :
    BridgeCall :=
  .create
    { asset := asset, vault := vault, mint := x.mint,
      metadata := x.metadata.getD (T.metadata x.mint),
      updateAuthority := (x.updateAuthority.getD (ctx.identity, true)).1,
      collection := x.collection, payer := x.payer.getD ctx.payer, sys := x.sys.getD Key.system }
    (x.updateAuthority.getD (ctx.identity, true)).2 (x.assetProgram.getD T.assetProgram)
    x.isCollection

end Verif.Spec
