import Verif.Model.ProxyClient
import Verif.Model.BridgeCreate
import Verif.Tests.Base

/-!
# Tests of the clients of the proxy program and of the bridge

clients/js/proxy/test and clients/js/bridge/test, act by act. Three programs run here: the asset program,
the proxy program and the bridge.

Not repository code, and stand-ins: the derivation of addresses (`derive`, where the first bump seed never
works), keccak (`hash`), the clock (the time of a transaction is part of the act), Token Metadata (a token
is put into its place with the metadata a test asks for; only who holds it is kept, so that assertions
about frozen accounts are left out). The creator of a token is the identity unless a test says otherwise,
as the last test expects. `t.like` with an array of extensions is one act per extension: those a test does
not mention are not looked at.
-/

namespace Verif.Tests

open Verif Verif.Ex

/-- The proxy program. -/
def proxyProg : Key := k 97

/-- The bridge. -/
def bridgeProg : Key := k 96

/-- The token program, the token metadata program. -/
def splProg : Key := k 95
def metadataProg : Key := k 94

/-- Addresses of programs: they keep the end of the seeds and have a first byte of their own. -/
def derive (seeds : Bytes) (bump : UInt8) (p : Key) : Option Key :=
  if bump = 254 then
    some (Key.ofBytes ((byteAt seeds 0 + byteAt p.1 0) :: seeds.drop (seeds.length - 31)))
  else none

/-- programs/proxy/src/image.svg before and after the colour. -/
def svgHead : Bytes :=
  [60, 63, 120, 109, 108, 32, 118, 101, 114, 115, 105, 111, 110, 61, 34, 49, 46, 48, 34, 32, 101,
  110, 99, 111, 100, 105, 110, 103, 61, 34, 85, 84, 70, 45, 56, 34, 32, 115, 116, 97, 110, 100,
  97, 108, 111, 110, 101, 61, 34, 110, 111, 34, 63, 62, 60, 33, 68, 79, 67, 84, 89, 80, 69, 32,
  115, 118, 103, 32, 80, 85, 66, 76, 73, 67, 32, 34, 45, 47, 47, 87, 51, 67, 47, 47, 68, 84, 68,
  32, 83, 86, 71, 32, 49, 46, 49, 47, 47, 69, 78, 34, 32, 34, 104, 116, 116, 112, 58, 47, 47, 119,
  119, 119, 46, 119, 51, 46, 111, 114, 103, 47, 71, 114, 97, 112, 104, 105, 99, 115, 47, 83, 86,
  71, 47, 49, 46, 49, 47, 68, 84, 68, 47, 115, 118, 103, 49, 49, 46, 100, 116, 100, 34, 62, 60,
  115, 118, 103, 32, 119, 105, 100, 116, 104, 61, 34, 49, 48, 48, 37, 34, 32, 104, 101, 105, 103,
  104, 116, 61, 34, 49, 48, 48, 37, 34, 32, 118, 105, 101, 119, 66, 111, 120, 61, 34, 48, 32, 48,
  32, 53, 51, 55, 32, 53, 51, 55, 34, 32, 118, 101, 114, 115, 105, 111, 110, 61, 34, 49, 46, 49,
  34, 32, 120, 109, 108, 110, 115, 61, 34, 104, 116, 116, 112, 58, 47, 47, 119, 119, 119, 46, 119,
  51, 46, 111, 114, 103, 47, 50, 48, 48, 48, 47, 115, 118, 103, 34, 32, 120, 109, 108, 110, 115,
  58, 120, 108, 105, 110, 107, 61, 34, 104, 116, 116, 112, 58, 47, 47, 119, 119, 119, 46, 119, 51,
  46, 111, 114, 103, 47, 49, 57, 57, 57, 47, 120, 108, 105, 110, 107, 34, 32, 120, 109, 108, 58,
  115, 112, 97, 99, 101, 61, 34, 112, 114, 101, 115, 101, 114, 118, 101, 34, 32, 120, 109, 108,
  110, 115, 58, 115, 101, 114, 105, 102, 61, 34, 104, 116, 116, 112, 58, 47, 47, 119, 119, 119,
  46, 115, 101, 114, 105, 102, 46, 99, 111, 109, 47, 34, 32, 115, 116, 121, 108, 101, 61, 34, 102,
  105, 108, 108, 45, 114, 117, 108, 101, 58, 101, 118, 101, 110, 111, 100, 100, 59, 99, 108, 105,
  112, 45, 114, 117, 108, 101, 58, 101, 118, 101, 110, 111, 100, 100, 59, 115, 116, 114, 111, 107,
  101, 45, 108, 105, 110, 101, 106, 111, 105, 110, 58, 114, 111, 117, 110, 100, 59, 115, 116, 114,
  111, 107, 101, 45, 109, 105, 116, 101, 114, 108, 105, 109, 105, 116, 58, 50, 59, 34, 62, 60,
  103, 32, 116, 114, 97, 110, 115, 102, 111, 114, 109, 61, 34, 109, 97, 116, 114, 105, 120, 40,
  49, 44, 48, 44, 48, 44, 49, 44, 45, 49, 54, 55, 55, 46, 49, 55, 44, 45, 50, 50, 51, 53, 46, 56,
  50, 41, 34, 62, 60, 103, 32, 116, 114, 97, 110, 115, 102, 111, 114, 109, 61, 34, 109, 97, 116,
  114, 105, 120, 40, 51, 46, 50, 52, 50, 57, 51, 44, 48, 44, 48, 44, 51, 46, 50, 52, 50, 57, 51,
  44, 54, 48, 52, 46, 54, 57, 57, 44, 45, 51, 48, 52, 57, 46, 57, 49, 41, 34, 62, 60, 114, 101,
  99, 116, 32, 120, 61, 34, 51, 51, 48, 46, 55, 48, 57, 34, 32, 121, 61, 34, 49, 54, 50, 57, 46,
  57, 50, 34, 32, 119, 105, 100, 116, 104, 61, 34, 49, 54, 53, 46, 51, 53, 52, 34, 32, 104, 101,
  105, 103, 104, 116, 61, 34, 49, 54, 53, 46, 51, 53, 52, 34, 32, 115, 116, 121, 108, 101, 61, 34,
  102, 105, 108, 108, 58, 114, 103, 98, 40]
def svgTail : Bytes :=
  [41, 59, 34, 47, 62, 60, 47, 103, 62, 60, 103, 62, 60, 103, 32, 116, 114, 97, 110, 115, 102, 111,
  114, 109, 61, 34, 109, 97, 116, 114, 105, 120, 40, 50, 46, 57, 54, 54, 54, 52, 44, 48, 44, 48,
  44, 50, 46, 57, 54, 54, 54, 52, 44, 49, 48, 54, 57, 46, 51, 44, 45, 49, 56, 55, 53, 46, 57, 53,
  41, 34, 62, 60, 112, 97, 116, 104, 32, 100, 61, 34, 77, 50, 51, 54, 46, 50, 50, 44, 49, 52, 49,
  55, 46, 51, 50, 76, 50, 51, 54, 46, 50, 50, 44, 49, 53, 51, 53, 46, 52, 51, 76, 51, 53, 52, 46,
  51, 51, 49, 44, 49, 53, 51, 53, 46, 52, 51, 76, 50, 51, 54, 46, 50, 50, 44, 49, 52, 49, 55, 46,
  51, 50, 90, 34, 32, 115, 116, 121, 108, 101, 61, 34, 102, 105, 108, 108, 58, 119, 104, 105, 116,
  101, 59, 34, 47, 62, 60, 47, 103, 62, 60, 103, 32, 116, 114, 97, 110, 115, 102, 111, 114, 109,
  61, 34, 109, 97, 116, 114, 105, 120, 40, 50, 46, 57, 54, 54, 54, 52, 44, 48, 44, 48, 44, 50, 46,
  57, 54, 54, 54, 52, 44, 49, 48, 54, 57, 46, 51, 44, 45, 49, 56, 55, 53, 46, 57, 53, 41, 34, 62,
  60, 112, 97, 116, 104, 32, 100, 61, 34, 77, 51, 53, 52, 46, 51, 51, 49, 44, 49, 52, 49, 55, 46,
  51, 50, 76, 51, 53, 52, 46, 51, 51, 49, 44, 49, 52, 56, 56, 46, 49, 57, 76, 50, 56, 51, 46, 52,
  54, 53, 44, 49, 52, 49, 55, 46, 51, 50, 76, 51, 53, 52, 46, 51, 51, 49, 44, 49, 52, 49, 55, 46,
  51, 50, 90, 34, 32, 115, 116, 121, 108, 101, 61, 34, 102, 105, 108, 108, 58, 119, 104, 105, 116,
  101, 59, 34, 47, 62, 60, 47, 103, 62, 60, 47, 103, 62, 60, 47, 103, 62, 60, 47, 115, 118, 103,
  62, 10]

/-- The image with a colour. -/
def svg (rgb : Bytes) : Bytes := svgHead ++ rgb ++ svgTail

/-- What the proxy program takes from elsewhere, at a time. -/
def proxyWorld (time : Int) : ProxyConsts where
  assetId := prog
  image := svg
  hash := fun b => (b.take 32).reverse
  timestamp := time

/-- What there is besides accounts: the tokens and who holds them. -/
structure World where
  accounts : Accounts
  tokens : List TokenMetadata
  holders : List (Key × Key)

/-- Who holds a token. -/
def World.holder (w : World) (mint : Key) : Key :=
  match w.holders.find? fun p => p.1 == mint with
  | some p => p.2
  | none => Key.default

/-- The account with the metadata of a token. Its data is the number of the token in the list. -/
def metadataOf (mint : Key) : Key := Key.ofBytes (93 :: mint.1.drop 1)

/-- What the bridge takes from elsewhere. -/
def bridgeWorld (tokens : List TokenMetadata) : BridgeConsts where
  assetId := prog
  tokenPrograms := [splProg]
  metadata := fun d => match d with | [n] => tokens[n.toNat]? | _ => none
  metadataId := metadataProg

/-- The libraries the client of the bridge uses. -/
def libs : TokenLibs where
  metadata := metadataOf
  edition := fun m => Key.ofBytes (92 :: m.1.drop 1)
  record := fun m _ => Key.ofBytes (91 :: m.1.drop 1)
  ata := fun m o => Key.ofBytes (90 :: (m.1.drop 17 ++ o.1.drop 16))
  assetProgram := prog
  metadataProgram := metadataProg
  sysvar := k 89
  splToken := splProg
  splAta := k 88
  rulesProgram := k 87

/-- An instruction and the program it is for. -/
structure ProgIx where
  program : Key
  ix : ClientIx

/-- The environment of a transaction for one of its programs. -/
def worldEnv (L : Ledger) (program : Key) (ms : List Meta) : Env :=
  { txEnv L ms with program := program, pda := derive }

/-- One instruction. -/
def runIx (time : Int) (tokens : List TokenMetadata) (ms : List Meta) (S : Chain) (i : ProgIx) :
    Except Err Chain :=
  let E := worldEnv S.ledger i.program ms
  if i.program = prog then
    (executeBytes E S.ledger i.ix.keys i.ix.data).map fun L => ⟨L, S.holder⟩
  else if i.program = proxyProg then
    (proxyProcess E (proxyWorld time) S.ledger i.ix.keys i.ix.data).map fun L => ⟨L, S.holder⟩
  else bridgeProcess E (bridgeWorld tokens) S i.ix.keys i.ix.data

/-- A transaction of one instruction. -/
def World.run (w : World) (time : Int) (i : ProgIx) : Except Err World :=
  match runIx time w.tokens i.ix.metas ⟨ledger w.accounts, w.holder⟩ i with
  | .error e => .error e
  | .ok S =>
    .ok ⟨settle w.accounts S.ledger i.ix.keys.eraseDups, w.tokens,
      w.holders.map fun p => (p.1, S.holder p.1)⟩

/-- A new token. -/
def World.token (w : World) (m : TokenMetadata) (owner : Key) : World :=
  ⟨(m.mint, ⟨1461600, zeros 82, splProg⟩) ::
      (metadataOf m.mint, ⟨1461600, [UInt8.ofNat w.tokens.length], metadataProg⟩) :: w.accounts,
    w.tokens ++ [m], (m.mint, owner) :: w.holders⟩

/-- What happens in these tests. -/
inductive WorldAct
  /-- A token is created by the token metadata program, for an owner. -/
  | token (m : TokenMetadata) (owner : Key)
  /-- A transaction, at a time. -/
  | ok (time : Int) (i : Except Err ProgIx)
  /-- A transaction that fails with a message. -/
  | fails (time : Int) (i : Except Err ProgIx) (pattern : String)
  /-- `t.like` for an asset. -/
  | shows (x : Except Err Key) (w : Shown)
  /-- `t.like` for one of the extensions of an asset. -/
  | ext (x : Except Err Key) (i : Nat) (w : ExtLike)
  /-- Some extension of the asset. -/
  | has (x : Except Err Key) (w : ExtLike)
  /-- `t.like(await fetchVault(…), { discriminator: Discriminator.Vault, state, mint })` -/
  | vault (x : Except Err Key) (active : Bool) (mint : Key)
  /-- The one token is held by the account. -/
  | holds (x : Except Err Key) (mint : Key)

/-- `fetchAsset` of an address that may have to be derived. -/
def World.fetch (w : World) (x : Except Err Key) : Option JsAsset :=
  match x with
  | .ok x => Tests.fetch w.accounts x
  | .error _ => none

/-- The vault is as expected. -/
def World.vaultIs (w : World) (x : Except Err Key) (active : Bool) (mint : Key) : Bool :=
  match x with
  | .ok x =>
    let d := (ledger w.accounts x).data
    byteAt d 0 == 1 && (ledger w.accounts x).owner == bridgeProg &&
      (match jsReadVault d with | .ok v => v.active == active && v.mint == mint | .error _ => false)
  | .error _ => false

/-- The test goes through. -/
def World.play : World → List WorldAct → Bool
  | _, [] => true
  | w, .token m o :: as => World.play (w.token m o) as
  | w, .ok t i :: as =>
    match i with
    | .ok i => (match w.run t i with | .ok w' => World.play w' as | .error _ => false)
    | .error _ => false
  | w, .fails t i p :: as =>
    match i with
    | .ok i => (match w.run t i with | .ok _ => false | .error e => saysText e p && World.play w as)
    | .error _ => false
  | w, .shows x s :: as =>
    (match w.fetch x with | some A => s.fits A | none => false) && World.play w as
  | w, .ext x i e :: as =>
    (match w.fetch x with
      | some A => (match A.extensions[i]? with | some e' => e.fits e' | none => false)
      | none => false) && World.play w as
  | w, .has x e :: as =>
    (match w.fetch x with | some A => A.extensions.any e.fits | none => false) && World.play w as
  | w, .vault x a m :: as => w.vaultIs x a m && World.play w as
  | w, .holds x m :: as =>
    (match x with | .ok x => w.holder m == x | .error _ => false) && World.play w as

/-- The validator before a test. -/
def worldStart : World := ⟨start, [], []⟩

/-- The test passes. -/
def worldPasses (as : List WorldAct) : Bool := World.play worldStart as

/-- All the tests of a list pass. -/
inductive AllWorldPass : List (List WorldAct) → Prop
  | nil : AllWorldPass []
  | cons {t : List WorldAct} {ts : List (List WorldAct)} (h : worldPasses t = true)
    (hs : AllWorldPass ts) : AllWorldPass (t :: ts)

theorem AllWorldPass.passes {ts : List (List WorldAct)} (h : AllWorldPass ts) :
    ∀ t ∈ ts, worldPasses t = true := by
  induction h with
  | nil => simp
  | cons h _ ih => exact List.forall_mem_cons.2 ⟨h, ih⟩

/-! ## The clients -/

/-- The environment the clients derive addresses in. -/
def clientEnv (program : Key) : Env := worldEnv (ledger []) program []

/-- `findProxiedAssetPda`. -/
def proxied (stub : Key) : Except Err Key := jsProxiedAsset (clientEnv proxyProg) stub

/-- `create` of the proxy client. -/
def newProxied (stub owner : Key) (authority : Option Key := none) : Except Err ProgIx :=
  (jsProxyCreate (clientEnv proxyProg) prog ctx
    { stub := stub, owner := owner, authority := authority, payer := some identity,
      name := txt "Proxied Asset" }).map (⟨proxyProg, ·⟩)

/-- A function of the asset client, at an address that has to be derived. -/
def toAsset (a : Except Err Key) (x : Key → JsInput) : Except Err ProgIx := do
  return ⟨prog, ← jsInstruction prog ctx (x (← a))⟩

/-- The same with the option `proxy`, which the tests take from the asset: it is the proxy program. -/
def viaProxyProgram (a : Except Err Key) (x : Key → JsInput) : Except Err ProgIx := do
  return ⟨proxyProg, ← jsProxied proxyProg prog ctx (x (← a))⟩

/-- `findBridgeAssetPda`. -/
def bridged (mint : Key) : Except Err Key := jsBridgeAsset (clientEnv bridgeProg) mint

/-- `findVaultPda`. -/
def vaultOf (mint : Key) : Except Err Key := jsVault (clientEnv bridgeProg) mint

/-- `create` of the client of the bridge. -/
def newBridged (mint : Key) (isCollection : Bool) (updateAuthority : Key × Bool := (identity, true))
    (collection : Option Key := none) : Except Err ProgIx :=
  (jsBridgeCreate (clientEnv bridgeProg) libs ctx
    { mint := mint, updateAuthority := some updateAuthority, collection := collection,
      isCollection := isCollection }).map (⟨bridgeProg, ·⟩)

/-- `create` with the asset of a collection. -/
def newMember (mint collection : Key) : Except Err ProgIx := do
  newBridged mint false (collection := some (← bridged collection))

/-- `bridge`. -/
def crossing (mint owner : Key) (programmable : Bool := false) (group : Option Key := none) :
    Except Err ProgIx :=
  (jsBridge (clientEnv bridgeProg) libs ctx
    { mint := mint, owner := owner, group := group, programmable := programmable }).map
      (⟨bridgeProg, ·⟩)

/-- `bridge` with the asset of a collection. -/
def crossingIn (mint owner collection : Key) : Except Err ProgIx := do
  crossing mint owner (group := some (← bridged collection))

/-- The metadata `createNft` of the tests asks for. -/
def nft (mint : Key) (symbol uri : String) (programmable sized : Bool := false)
    (updateAuthority : Key := identity)
    (creators : List (Key × Bool × UInt8) := [(identity, true, 100)])
    (collection : Option (Bool × Key) := none) : TokenMetadata where
  mint := mint
  nonFungible := true
  programmable := programmable
  updateAuthority := updateAuthority
  name := txt "Bridge Asset"
  symbol := txt symbol
  uri := txt uri
  sellerFee := 550
  creators := some creators
  collection := collection
  sized := sized

/-! ## The proxy program -/

/-- it can set a delegate through the proxy program — approve.test.ts:16-53. The owner is `k 2`, the
stub `k 3`. -/
def proxy_approve_1 : List WorldAct := [
    .ok 0 (newProxied (k 3) (k 2)),
    .ok 0 (viaProxyProgram (proxied (k 3)) fun a => .approve a (some (k 2)) (k 4) (.some [.transfer])),
    .shows (proxied (k 3)) (obj (delegate := some (some (k 4, some [.transfer]))))]

theorem proxy_approve_1_passes : worldPasses proxy_approve_1 = true := by decide +kernel

/-- it can create a proxied asset — create.test.ts:15-47. -/
def proxy_create_1 : List WorldAct := [
    .ok 0 (newProxied (k 3) (k 2)),
    .shows (proxied (k 3)) (obj (state := some 0) (standard := some .proxied)),
    .has (proxied (k 3)) (.proxy (some identity))]

theorem proxy_create_1_passes : worldPasses proxy_create_1 = true := by decide +kernel

/-- it cannot transfer a non-signer proxied asset — transfer.test.ts:24-55. -/
def proxy_transfer_1 : List WorldAct := [
    .ok 0 (newProxied (k 3) (k 2)),
    .fails 0 (toAsset (proxied (k 3)) fun a => .transfer a (some (k 2)) (k 4) none)
      "missing required signature"]

theorem proxy_transfer_1_passes : worldPasses proxy_transfer_1 = true := by decide +kernel

/-- it can transfer a proxied asset through the proxy program — transfer.test.ts:57-93. -/
def proxy_transfer_2 : List WorldAct := [
    .ok 0 (newProxied (k 3) (k 2)),
    .ok 0 (viaProxyProgram (proxied (k 3)) fun a => .transfer a (some (k 2)) (k 4) none),
    .shows (proxied (k 3)) (obj (state := some 0) (standard := some .proxied) (owner := some (k 4)))]

theorem proxy_transfer_2_passes : worldPasses proxy_transfer_2 = true := by decide +kernel

/-- it can execute custom logic on transfer — transfer.test.ts:95-158. The first value of the attributes
is the counter, right-aligned; the time of the last transfer has grown. -/
def proxy_transfer_3 : List WorldAct := [
    .ok 1700000000 (newProxied (k 3) (k 2)),
    .has (proxied (k 3)) (.attributes [(txt "transfers", txt "           0")]),
    .has (proxied (k 3)) (.properties [(txt "last_transferred", .number 1700000000)]),
    .ok 1700000001 (viaProxyProgram (proxied (k 3)) fun a => .transfer a (some (k 2)) (k 4) none),
    .shows (proxied (k 3)) (obj (state := some 0) (standard := some .proxied) (owner := some (k 4))),
    .has (proxied (k 3)) (.attributes [(txt "transfers", txt "           1")]),
    .has (proxied (k 3)) (.properties [(txt "last_transferred", .number 1700000001)])]

theorem proxy_transfer_3_passes : worldPasses proxy_transfer_3 = true := by decide +kernel

/-- it can transfer the proxy asset multiple times — transfer.test.ts:160-214. -/
def proxy_transfer_4 : List WorldAct := [
    .ok 0 (newProxied (k 3) (k 3)),
    .has (proxied (k 3)) (.attributes [(txt "transfers", txt "           0")]),
    .ok 0 (viaProxyProgram (proxied (k 3)) fun a => .transfer a (some (k 3)) (k 4) none),
    .ok 0 (viaProxyProgram (proxied (k 3)) fun a => .transfer a (some (k 4)) (k 3) none),
    .has (proxied (k 3)) (.attributes [(txt "transfers", txt "           2")])]

theorem proxy_transfer_4_passes : worldPasses proxy_transfer_4 = true := by decide +kernel

/-- A new name, as an authority. -/
def newName (authority : Key) (a : Key) : JsInput :=
  .update a (some authority) none none none none (some (txt "Updated Proxied Asset")) none none

/-- it can update the name of a proxied asset — update.test.ts:16-66. -/
def proxy_update_1 : List WorldAct := [
    .ok 0 (newProxied (k 3) (k 2) (some (k 5))),
    .shows (proxied (k 3)) (obj (state := some 0) (standard := some .proxied)
      (name := some (txt "Proxied Asset"))),
    .has (proxied (k 3)) (.proxy (some (k 5))),
    .ok 0 (viaProxyProgram (proxied (k 3)) (newName (k 5))),
    .shows (proxied (k 3)) (obj (state := some 0) (standard := some .proxied)
      (name := some (txt "Updated Proxied Asset")))]

theorem proxy_update_1_passes : worldPasses proxy_update_1 = true := by decide +kernel

/-- it cannot update a proxied asset without the proxy authority — update.test.ts:68-113. -/
def proxy_update_2 : List WorldAct := [
    .ok 0 (newProxied (k 3) (k 2) (some (k 5))),
    .shows (proxied (k 3)) (obj (state := some 0) (standard := some .proxied)
      (name := some (txt "Proxied Asset"))),
    .has (proxied (k 3)) (.proxy (some (k 5))),
    .fails 0 (viaProxyProgram (proxied (k 3)) (newName (k 6))) "invalid program argument"]

theorem proxy_update_2_passes : worldPasses proxy_update_2 = true := by decide +kernel

/-- The tests of the client of the proxy program. -/
def proxyTests : List (List WorldAct) :=
  [proxy_approve_1, proxy_create_1, proxy_transfer_1, proxy_transfer_2, proxy_transfer_3,
    proxy_transfer_4, proxy_update_1, proxy_update_2]

theorem proxyTests_pass : AllWorldPass proxyTests :=
  .cons proxy_approve_1_passes <| .cons proxy_create_1_passes <| .cons proxy_transfer_1_passes <|
  .cons proxy_transfer_2_passes <| .cons proxy_transfer_3_passes <| .cons proxy_transfer_4_passes <|
  .cons proxy_update_1_passes <| .cons proxy_update_2_passes .nil

/-! ## The bridge -/

/-- it can bridge an asset to a token, for both kinds of tokens — bridge.test.ts:34-127 and 194-291. The
owner is `k 2`, the mint `k 3`. -/
def bridge_back (programmable : Bool) : List WorldAct := [
    .token (nft (k 3) "" "https://asset.bridge" programmable) (k 2),
    .ok 0 (newBridged (k 3) false),
    .ok 0 (crossing (k 3) (k 2) programmable),
    .shows (bridged (k 3)) (obj (owner := some (k 2))),
    .holds (vaultOf (k 3)) (k 3),
    .ok 0 (crossing (k 3) (k 2) programmable),
    .vault (vaultOf (k 3)) false (k 3),
    .shows (bridged (k 3)) (obj (owner := (vaultOf (k 3)).toOption)),
    .holds (.ok (k 2)) (k 3)]

theorem bridge_back_passes : worldPasses (bridge_back false) = true := by decide +kernel
theorem bridge_back_passes' : worldPasses (bridge_back true) = true := by decide +kernel

/-- it can bridge a token to an asset, for both kinds of tokens — bridge.test.ts:129-192 and 293-361. -/
def bridge_forth (programmable : Bool) : List WorldAct := [
    .token (nft (k 3) "" "https://asset.bridge" programmable) (k 2),
    .ok 0 (newBridged (k 3) false),
    .ok 0 (crossing (k 3) (k 2) programmable),
    .vault (vaultOf (k 3)) true (k 3),
    .shows (bridged (k 3)) (obj (owner := some (k 2))),
    .holds (vaultOf (k 3)) (k 3)]

theorem bridge_forth_passes : worldPasses (bridge_forth false) = true := by decide +kernel
theorem bridge_forth_passes' : worldPasses (bridge_forth true) = true := by decide +kernel

/-- The metadata of a bridged asset as the tests compare it. -/
def badge (uri : String) : ExtLike := .metadata (some (txt "BA")) none (some (txt uri)) none

/-- it can create an asset on the bridge, for both kinds of tokens — create.test.ts:33-75 and 154-198. -/
def bridge_create (programmable : Bool) : List WorldAct := [
    .token (nft (k 3) "BA" "https://asset.bridge" programmable) identity,
    .ok 0 (newBridged (k 3) false),
    .vault (vaultOf (k 3)) false (k 3),
    .ext (bridged (k 3)) 0 (badge "https://asset.bridge")]

theorem bridge_create_passes : worldPasses (bridge_create false) = true := by decide +kernel
theorem bridge_create_passes' : worldPasses (bridge_create true) = true := by decide +kernel

/-- it can create a collection asset on the bridge for a pNFT — create.test.ts:77-152. -/
def bridge_create_collection : List WorldAct := [
    .token (nft (k 3) "BA" "https://asset.bridge" (programmable := true)
      (creators := [(k 4, false, 50), (k 5, false, 50)])) identity,
    .ok 0 (newBridged (k 3) true),
    .vault (vaultOf (k 3)) false (k 3),
    .ext (bridged (k 3)) 0 (badge "https://asset.bridge"),
    .ext (bridged (k 3)) 1 (.creators [(k 4, some false, 50), (k 5, some false, 50)]),
    .ext (bridged (k 3)) 2 (.grouping (some 0) (some 0) none),
    .ext (bridged (k 3)) 3 (.royalties 550 (some .empty))]

theorem bridge_create_collection_passes : worldPasses bridge_create_collection = true := by
  decide +kernel

/-- it cannot create an asset on the bridge without the update authority as signer —
create.test.ts:200-226. -/
def bridge_create_unsigned : List WorldAct := [
    .token (nft (k 3) "" "https://asset.bridge" (updateAuthority := k 6)
      (creators := [(k 6, true, 100)])) identity,
    .fails 0 (newBridged (k 3) false (k 6, false)) "missing required signature"]

theorem bridge_create_unsigned_passes : worldPasses bridge_create_unsigned = true := by decide +kernel

/-- it can create an asset on the bridge with a collection — create.test.ts:228-274. -/
def bridge_create_member : List WorldAct := [
    .token (nft (k 3) "" "https://collection.bridge" (sized := true)) identity,
    .ok 0 (newBridged (k 3) false),
    .token (nft (k 4) "" "https://asset.bridge" (collection := some (true, k 3))) identity,
    .ok 0 (newMember (k 4) (k 3)),
    .vault (vaultOf (k 4)) false (k 4)]

theorem bridge_create_member_passes : worldPasses bridge_create_member = true := by decide +kernel

/-- `group(umi, { asset, group })`. -/
def grouped (mint collection : Key) : Except Err ProgIx := do
  let g ← bridged collection
  toAsset (bridged mint) fun a => .group a g none

/-- `update(umi, { asset, payer, extension: royalties(550, pubkeyMatch('Recipient', [x])) })`. -/
def newRoyalties (mint x : Key) : Except Err ProgIx := do
  let i ← jsUpdateTyped prog ctx ⟨← bridged mint, none, none, none, some identity, none, none, .bucket [],
    none⟩ (some (.royalties 550 (.pubkeyMatch 2 [x])))
  return ⟨prog, i⟩

/-- What the test expects of the asset of the collection. -/
def collectionIs (mint x : Key) : List WorldAct := [
    .shows (bridged mint) (obj (state := some 0) (standard := some .nonFungible)
      (owner := (vaultOf mint).toOption) (authority := some identity)),
    .ext (bridged mint) 0 (badge "https://collection.bridge"),
    .ext (bridged mint) 1 (.creators [(identity, some true, 100)]),
    .ext (bridged mint) 2 (.grouping (some 1) (some 0) none),
    .ext (bridged mint) 3 (.royalties 550 (some (.pubkeyMatch 2 [x])))]

/-- pubkeymatch failing blocks a transfer on a group asset — royalties.test.ts:49-276. The collection is
`k 3`, the item `k 4`, the owner `k 2`, the other one `k 7`. -/
def bridge_royalties : List WorldAct := [
    .token (nft (k 3) "BA" "https://collection.bridge" (programmable := true) (sized := true)) (k 2),
    .ok 0 (newBridged (k 3) true),
    .token (nft (k 4) "BA" "https://asset.bridge" (collection := some (true, k 3))) (k 2),
    .ok 0 (newMember (k 4) (k 3)),
    .vault (vaultOf (k 3)) false (k 3),
    .vault (vaultOf (k 4)) false (k 4),
    .ok 0 (grouped (k 4) (k 3)),
    .shows (bridged (k 4)) (obj (state := some 0) (standard := some .nonFungible)
      (owner := (vaultOf (k 4)).toOption) (authority := some identity)),
    .ext (bridged (k 4)) 0 (badge "https://asset.bridge"),
    .ok 0 (newRoyalties (k 3) (k 7))] ++ collectionIs (k 3) (k 7) ++ [
    .fails 0 (crossingIn (k 4) (k 2) (k 3)) "Assertion Failure",
    .shows (bridged (k 4)) (obj (owner := (vaultOf (k 4)).toOption)),
    .ok 0 (newRoyalties (k 3) (k 2))] ++ collectionIs (k 3) (k 2) ++ [
    .ok 0 (crossingIn (k 4) (k 2) (k 3)),
    .shows (bridged (k 4)) (obj (owner := some (k 2)))]

theorem bridge_royalties_passes : worldPasses bridge_royalties = true := by decide +kernel

/-- The tests of the client of the bridge. -/
def bridgeTests : List (List WorldAct) :=
  [bridge_back false, bridge_forth false, bridge_back true, bridge_forth true, bridge_create false,
    bridge_create_collection, bridge_create true, bridge_create_unsigned, bridge_create_member,
    bridge_royalties]

theorem bridgeTests_pass : AllWorldPass bridgeTests :=
  .cons bridge_back_passes <| .cons bridge_forth_passes <| .cons bridge_back_passes' <|
  .cons bridge_forth_passes' <| .cons bridge_create_passes <| .cons bridge_create_collection_passes <|
  .cons bridge_create_passes' <| .cons bridge_create_unsigned_passes <|
  .cons bridge_create_member_passes <| .cons bridge_royalties_passes .nil

end Verif.Tests
