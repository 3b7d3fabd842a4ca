import Verif.Model.IdlFiles
import Verif.Model.BridgeClient
import Verif.Model.ProxyClient
import Verif.Spec.Calls
import Verif.Spec.JsWrites
import Verif.Spec.ProxyClient
import Verif.Spec.Wire

/-!
# Calls in the words of the description

How a caller who only has the description of the program names an instruction, its accounts and its
arguments.
-/

namespace Verif.Spec

open Verif

/-- The name of the instruction. -/
def nameOf : Instr → String
  | .close => "close"
  | .burn => "burn"
  | .create _ => "create"
  | .approve _ => "approve"
  | .allocate _ => "allocate"
  | .lock => "lock"
  | .revoke _ => "revoke"
  | .transfer => "transfer"
  | .unlock => "unlock"
  | .unverify => "unverify"
  | .update _ => "update"
  | .verify => "verify"
  | .write _ => "write"
  | .group => "group"
  | .ungroup => "ungroup"
  | .handover => "handover"
  | .remove _ => "remove"
  | .resize _ => "resize"

/-- The name of an extension type. -/
def extName : ExtType → String
  | .none => "none"
  | .attributes => "attributes"
  | .blob => "blob"
  | .creators => "creators"
  | .links => "links"
  | .metadata => "metadata"
  | .grouping => "grouping"
  | .royalties => "royalties"
  | .manager => "manager"
  | .proxy => "proxy"
  | .properties => "properties"
  | .bucket => "bucket"

/-- The name of a standard. -/
def standardName : Standard → String
  | .nonFungible => "nonFungible"
  | .managed => "managed"
  | .soulbound => "soulbound"
  | .proxied => "proxied"

/-- The name of a role. -/
def roleName : Role → String
  | .none => "none"
  | .transfer => "transfer"
  | .lock => "lock"
  | .burn => "burn"

/-- A value that may be absent. -/
def maybe {α : Type} (f : α → NodeVal) : Option α → NodeVal
  | none => .absent
  | some a => .present (f a)

/-- An extension input. -/
def extValue (x : ExtInput) : NodeVal :=
  .fields [("extensionType", .variant (extName x.ty) none), ("length", .num x.length.toNat),
    ("data", maybe .bytes x.data)]

/-- A delegate input. -/
def delegateValue : DelegateInput → NodeVal
  | .all => .variant "all" none
  | .some roles =>
    .variant "some" (some (.fields [("roles", .list (roles.map fun r => .variant (roleName r) none))]))

/-- A strategy. -/
def strategyValue : Strategy → NodeVal
  | .trim => .variant "trim" none
  | .extend v => .variant "extend" (some (.fields [("value", .num v.toNat)]))

/-- The arguments of the instruction. -/
def argsOf : Instr → List (String × NodeVal)
  | .create x =>
    [("name", .bytes x.name), ("standard", .variant (standardName x.standard) none),
      ("mutable", .bool x.isMutable),
      ("extensions", maybe (fun l => .list (l.map extValue)) x.extensions)]
  | .approve x | .revoke x => [("delegateInput", delegateValue x)]
  | .allocate x => [("extension", extValue x)]
  | .update x =>
    [("name", maybe .bytes x.name), ("mutable", maybe .bool x.isMutable),
      ("extension", maybe extValue x.extension)]
  | .write x => [("overwrite", .bool x.overwrite), ("bytes", .bytes x.bytes)]
  | .remove t => [("extensionType", .variant (extName t) none)]
  | .resize s => [("strategy", strategyValue s)]
  | _ => []

/-- An account that is named only if it is there. -/
def ifGiven (name : String) (o : Option Key) : Named :=
  match o with
  | none => []
  | some k => [(name, (k, false))]

/-- The accounts of the call by name. The flag is the choice of the caller where there is one; elsewhere
it is without meaning and set to false. -/
def accountsOf : Call → Named
  | .close buffer recipient => [("buffer", (buffer, false)), ("recipient", (recipient, false))]
  | .burn asset signer recipient g =>
    [("asset", (asset, false)), ("signer", (signer, false))] ++ ifGiven "recipient" recipient ++
      ifGiven "group" g
  | .create asset authority owner g groupAuthority payer sys _ =>
    [("asset", (asset, false)), ("authority", authority), ("owner", (owner, false))] ++
      ifGiven "group" g ++ ifGiven "groupAuthority" groupAuthority ++ ifGiven "payer" payer ++
      ifGiven "systemProgram" sys
  | .approve asset owner delegate _ =>
    [("asset", (asset, false)), ("owner", (owner, false)), ("delegate", (delegate, false))]
  | .allocate asset payer sys _ =>
    [("asset", (asset, false))] ++ ifGiven "payer" payer ++ ifGiven "systemProgram" sys
  | .lock asset signer | .unlock asset signer | .revoke asset signer _ =>
    [("asset", (asset, false)), ("signer", (signer, false))]
  | .transfer asset signer recipient g =>
    [("asset", (asset, false)), ("signer", (signer, false)), ("recipient", (recipient, false))] ++
      ifGiven "group" g
  | .unverify asset creator | .verify asset creator =>
    [("asset", (asset, false)), ("creator", (creator, false))]
  | .update asset authority buffer g payer sys _ =>
    [("asset", (asset, false)), ("authority", (authority, false))] ++ ifGiven "buffer" buffer ++
      ifGiven "group" g ++ ifGiven "payer" payer ++ ifGiven "systemProgram" sys
  | .write asset payer sys _ =>
    [("asset", (asset, false)), ("payer", (payer, false)), ("systemProgram", (sys, false))]
  | .group asset g authority | .ungroup asset g authority =>
    [("asset", (asset, false)), ("group", (g, false)), ("authority", (authority, false))]
  | .handover asset authority newAuthority =>
    [("asset", (asset, false)), ("authority", (authority, false)),
      ("newAuthority", (newAuthority, false))]
  | .remove asset authority g recipient _ =>
    [("asset", (asset, false)), ("authority", (authority, false))] ++ ifGiven "group" g ++
      [("recipient", (recipient, false))]
  | .resize asset authority payer sys _ =>
    [("asset", (asset, false)), ("authority", (authority, false)), ("payer", payer)] ++
      ifGiven "systemProgram" sys

/-! ## Requests with defaults -/

/-- An account with a choice, if it is given. -/
def ifSigner (name : String) (o : Option (Key × Bool)) : Named :=
  match o with
  | none => []
  | some k => [(name, k)]

/-- The accounts that a request to the JavaScript client names. -/
def requested : JsInput → Named
  | .close buffer recipient => [("buffer", (buffer, false)), ("recipient", (recipient, false))]
  | .burn asset signer recipient g =>
    [("asset", (asset, false)), ("signer", (signer, false))] ++ ifGiven "recipient" recipient ++
      ifGiven "group" g
  | .create asset authority owner g groupAuthority payer sys _ _ _ _ =>
    [("asset", (asset, false))] ++ ifSigner "authority" authority ++ ifGiven "owner" owner ++
      ifGiven "group" g ++ ifGiven "groupAuthority" groupAuthority ++ ifGiven "payer" payer ++
      ifGiven "systemProgram" sys
  | .approve asset owner delegate _ =>
    [("asset", (asset, false)), ("delegate", (delegate, false))] ++ ifGiven "owner" owner
  | .allocate asset payer sys _ =>
    [("asset", (asset, false))] ++ ifGiven "payer" payer ++ ifGiven "systemProgram" sys
  | .lock asset signer | .unlock asset signer | .revoke asset signer _ =>
    [("asset", (asset, false))] ++ ifGiven "signer" signer
  | .transfer asset signer recipient g =>
    [("asset", (asset, false)), ("recipient", (recipient, false))] ++ ifGiven "signer" signer ++
      ifGiven "group" g
  | .unverify asset creator | .verify asset creator =>
    [("asset", (asset, false)), ("creator", (creator, false))]
  | .update asset authority buffer g payer sys _ _ _ =>
    [("asset", (asset, false))] ++ ifGiven "authority" authority ++ ifGiven "buffer" buffer ++
      ifGiven "group" g ++ ifGiven "payer" payer ++ ifGiven "systemProgram" sys
  | .write asset payer sys _ _ =>
    [("asset", (asset, false))] ++ ifGiven "payer" payer ++ ifGiven "systemProgram" sys
  | .group asset g authority | .ungroup asset g authority =>
    [("asset", (asset, false)), ("group", (g, false))] ++ ifGiven "authority" authority
  | .handover asset authority newAuthority =>
    [("asset", (asset, false)), ("newAuthority", (newAuthority, false))] ++
      ifGiven "authority" authority
  | .remove asset authority g recipient _ =>
    [("asset", (asset, false))] ++ ifGiven "authority" authority ++ ifGiven "group" g ++
      ifGiven "recipient" recipient
  | .resize asset authority payer sys _ =>
    [("asset", (asset, false))] ++ ifGiven "authority" authority ++ ifSigner "payer" payer ++
      ifGiven "systemProgram" sys

/-- An argument that is named only if it is chosen. -/
def ifChosen {α : Type} (name : String) (f : α → NodeVal) (o : Option α) : List (String × NodeVal) :=
  match o with
  | none => []
  | some a => [(name, f a)]

/-- An extension input of a request. -/
def jsExtValue (x : JsExtInput) : NodeVal :=
  .fields [("extensionType", .variant (extName x.extensionType) none), ("length", .num x.length),
    ("data", maybe .bytes x.data)]

/-- A strategy of a request. -/
def jsStrategyValue : JsStrategy → NodeVal
  | .trim => .variant "trim" none
  | .extend v => .variant "extend" (some (.fields [("value", .num v)]))

/-- The arguments that a request names: those that are left out are left out here, too. -/
def requestedArgs : JsInput → List (String × NodeVal)
  | .create _ _ _ _ _ _ _ name standard isMutable extensions =>
    [("name", .bytes name)] ++
      ifChosen "standard" (fun s => .variant (standardName s) none) standard ++
      ifChosen "mutable" .bool isMutable ++
      ifChosen "extensions" (fun l => .present (.list (l.map jsExtValue))) extensions
  | .approve _ _ _ x | .revoke _ _ x => [("delegateInput", delegateValue x)]
  | .allocate _ _ _ x => [("extension", jsExtValue x)]
  | .update _ _ _ _ _ _ name isMutable extension =>
    ifChosen "name" (fun s => .present (.bytes s)) name ++
      ifChosen "mutable" (fun b => .present (.bool b)) isMutable ++
      ifChosen "extension" (fun x => .present (jsExtValue x)) extension
  | .write _ _ _ overwrite bytes => [("overwrite", .bool overwrite), ("bytes", .bytes bytes)]
  | .remove _ _ _ _ t => [("extensionType", .variant (extName t) none)]
  | .resize _ _ _ _ s => [("strategy", jsStrategyValue s)]
  | _ => []

/-! ## Extension data -/

/-- A list of bytes as numbers. -/
def byteList (b : Bytes) : NodeVal := .list (b.map fun x => .num x.toNat)

/-- A pair of texts. -/
def pairValue (second : String) (x : Bytes × Bytes) : NodeVal :=
  .fields [("name", .bytes x.1), (second, .bytes x.2)]

/-- The contents of an extension; nothing for the types of which the description does not say
everything. -/
def contents : JsExt → Option NodeVal
  | .attributes l => some (.fields [("values", .list (l.map (pairValue "value")))])
  | .links l => some (.fields [("values", .list (l.map (pairValue "uri")))])
  | .blob ct data => some (.fields [("contentType", .bytes ct), ("data", byteList data)])
  | .creators cs => some (.fields [("values", .list (cs.map fun c =>
      .fields [("address", .key c.address), ("verified", .bool c.verified), ("share", .num c.share)]))])
  | .metadata m => some (.fields [("symbol", .bytes m.symbol), ("description", .bytes m.description),
      ("uri", .bytes m.uri), ("imageUri", .bytes m.imageUri)])
  | .bucket data => some (.fields [("data", byteList data)])
  | _ => none

/-- The texts are texts. -/
def TextsIn : JsExt → Prop
  | .attributes l | .links l => ∀ x ∈ l, validUtf8 x.1 = true ∧ validUtf8 x.2 = true
  | .blob ct _ => validUtf8 ct = true
  | .metadata m => validUtf8 m.symbol = true ∧ validUtf8 m.description = true ∧
      validUtf8 m.uri = true ∧ validUtf8 m.imageUri = true
  | _ => True

/-! ## The other descriptions -/

/-- What a description says about an account; an open choice counts as no signer. -/
def row (a : AccountNode) : String × Bool × Bool × Bool :=
  (a.name, a.isWritable, (match a.isSigner with | .yes => true | _ => false), a.isOptional)

/-- The names of the instructions, in the two spellings of the descriptions. -/
def titles : List (String × String) :=
  [("close", "Close"), ("burn", "Burn"), ("create", "Create"), ("approve", "Approve"),
    ("allocate", "Allocate"), ("lock", "Lock"), ("revoke", "Revoke"), ("transfer", "Transfer"),
    ("unlock", "Unlock"), ("unverify", "Unverify"), ("update", "Update"), ("verify", "Verify"),
    ("write", "Write"), ("group", "Group"), ("ungroup", "Ungroup"), ("handover", "Handover"),
    ("remove", "Remove"), ("resize", "Resize")]

/-- The constant in front of the arguments. -/
def InstrNode.number (i : InstrNode) : Option Nat :=
  match i.args with
  | ⟨_, .num 1, some (.num n), true⟩ :: _ => some n
  | _ => none

/-- No choices are made. -/
def NoChoice : Call → Prop
  | .create _ authority _ _ _ _ _ _ => authority.2 = false
  | .resize _ _ payer _ _ => payer.2 = false
  | _ => True

/-- The accounts of a call to the bridge. -/
def bridgeNamed : BridgeCall → Named
  | .bridge x =>
    [("asset", (x.asset, false)), ("vault", (x.vault, false)), ("owner", (x.owner, false)),
      ("token", (x.token, false)), ("mint", (x.mint, false)), ("metadata", (x.metadata, false)),
      ("masterEdition", (x.masterEdition, false))] ++ ifGiven "tokenRecord" x.tokenRecord ++
      [("vaultToken", (x.vaultToken, false))] ++ ifGiven "vaultTokenRecord" x.vaultTokenRecord ++
      [("payer", (x.payer, false)), ("niftyAssetProgram", (x.assetProgram, false)),
        ("tokenMetadataProgram", (x.metadataProgram, false)), ("systemProgram", (x.sys, false)),
        ("sysvarInstructions", (x.sysvar, false)), ("splTokenProgram", (x.splToken, false)),
        ("splAtaProgram", (x.splAta, false))] ++
      ifGiven "authorizationRulesProgram" x.rulesProgram ++ ifGiven "authorizationRules" x.rules ++
      ifGiven "groupAsset" x.group
  | .create x _ ap _ =>
    [("asset", (x.asset, false)), ("vault", (x.vault, false)), ("mint", (x.mint, false)),
      ("metadata", (x.metadata, false)), ("updateAuthority", (x.updateAuthority, false))] ++
      ifGiven "collection" x.collection ++
      [("payer", (x.payer, false)), ("systemProgram", (x.sys, false)), ("niftyAssetProgram", (ap, false))]

/-- Name and arguments of a call to the bridge. -/
def bridgeName : BridgeCall → String × List (String × NodeVal)
  | .bridge _ => ("Bridge", [])
  | .create _ _ _ b => ("Create", [("createArgs", .fields [("isCollection", .bool b)])])

/-- The accounts of a request to create a proxied asset. -/
def proxyNamed (x : ProxyRequest) : Named :=
  [("asset", (x.asset, false)), ("stub", (x.stub, false)), ("owner", (x.owner, false)),
    ("authority", (x.authority, false))] ++ ifGiven "payer" x.payer ++
    ifGiven "systemProgram" x.sys ++ [("niftyAssetProgram", (x.assetProgram, false))]

end Verif.Spec
