import Verif.Model.JsMint

/-!
# The instruction builders of the JavaScript client

clients/js/asset/src/generated/instructions/*.ts: one function per instruction, which fills in
defaults, lists the accounts and serialises the arguments. An account is either an address or a
`Signer`; which of the two is allowed is part of the TypeScript type, so that the inputs below carry a
flag only where both are. `context.programs.getPublicKey('systemProgram', …)` is the system program.
-/

namespace Verif

/-! ## Accounts -/

/-- `ResolvedAccount` — generated/shared/index.ts:67-70: the value (an address, and whether it is given
as a signer) or `null`, and `isWritable`. -/
structure JsResolved where
  value : Option (Key × Bool)
  isWritable : Bool

/-- One account of `getAccountMetasAndSigners` with the strategy `'programId'` —
generated/shared/index.ts:99-113. -/
def jsMeta (programId : Key) (a : JsResolved) : Meta :=
  match a.value with
  | none => ⟨programId, false, false⟩
  | some (k, s) => ⟨k, s, a.isWritable⟩

/-- `getAccountMetasAndSigners` — generated/shared/index.ts:91-117. -/
def jsMetas (programId : Key) (l : List JsResolved) : List Meta := l.map (jsMeta programId)

/-- An account given as an address. -/
def jsAddress (k : Key) : Option (Key × Bool) := some (k, false)

/-- An account given as a signer. -/
def jsSigner (k : Key) : Option (Key × Bool) := some (k, true)

/-! ## Arguments -/

/-- `ExtensionInputArgs` — generated/types/extensionInput.ts. -/
structure JsExtInput where
  extensionType : ExtType
  length : Nat
  data : Option Bytes

/-- `StrategyArgs` — generated/types/strategy.ts. -/
inductive JsStrategy
  | trim
  | extend (value : Nat)

/-- `bytes({ size: u32() })` and `string()`: the length in four bytes. -/
def jsPutBytes (b : Bytes) : Except Err Bytes := do
  let n ← jsPutNum 4 b.length
  return n ++ b

/-- `option(f)`: a byte for the presence. -/
def jsPutOption {α : Type} (f : α → Except Err Bytes) : Option α → Except Err Bytes
  | none => .ok [0]
  | some a => do
    let b ← f a
    return [1] ++ b

/-- `array(f)`: the number of items in four bytes. -/
def jsPutArray {α : Type} (f : α → Except Err Bytes) (l : List α) : Except Err Bytes := do
  let n ← jsPutNum 4 l.length
  let b ← jsPutAll f l
  return n ++ b

/-- The position of an enumerator of `ExtensionType` — generated/types/extensionType.ts. -/
def jsExtType : ExtType → Nat
  | .none => 0
  | .attributes => 1
  | .blob => 2
  | .creators => 3
  | .links => 4
  | .metadata => 5
  | .grouping => 6
  | .royalties => 7
  | .manager => 8
  | .proxy => 9
  | .properties => 10
  | .bucket => 11

/-- The same for `Standard` — generated/types/standard.ts. -/
def jsStandard : Standard → Nat
  | .nonFungible => 0
  | .managed => 1
  | .soulbound => 2
  | .proxied => 3

/-- The same for `DelegateRole` — generated/types/delegateRole.ts. -/
def jsRole : Role → Nat
  | .none => 0
  | .transfer => 1
  | .lock => 2
  | .burn => 3

/-- `scalarEnum`: the position in one byte. -/
def jsPutEnum (n : Nat) : Except Err Bytes := jsPutNum 1 n

/-- `getExtensionInputSerializer` — generated/types/extensionInput.ts. -/
def jsPutExtInput (x : JsExtInput) : Except Err Bytes := do
  let t ← jsPutEnum (jsExtType x.extensionType)
  let n ← jsPutNum 4 x.length
  let d ← jsPutOption jsPutBytes x.data
  return t ++ n ++ d

/-- `getDelegateInputSerializer` — generated/types/delegateInput.ts. -/
def jsPutDelegateInput : DelegateInput → Except Err Bytes
  | .all => jsPutEnum 0
  | .some roles => do
    let t ← jsPutEnum 1
    let r ← jsPutArray (fun r => jsPutEnum (jsRole r)) roles
    return t ++ r

/-- `getStrategySerializer` — generated/types/strategy.ts. -/
def jsPutStrategy : JsStrategy → Except Err Bytes
  | .trim => jsPutEnum 0
  | .extend v => do
    let t ← jsPutEnum 1
    let n ← jsPutNum 2 v
    return t ++ n

/-! ## Instructions -/

/-- The `…InstructionAccounts & …InstructionArgs` of the files. -/
inductive JsInput
  | close (buffer recipient : Key)
  | burn (asset signer : Key) (recipient group : Option Key)
  | create (asset : Key) (authority : Option (Key × Bool))
      (owner group groupAuthority payer sys : Option Key) (name : Bytes)
      (standard : Option Standard) (isMutable : Option Bool) (extensions : Option (List JsExtInput))
  | approve (asset : Key) (owner : Option Key) (delegate : Key) (x : DelegateInput)
  | allocate (asset : Key) (payer sys : Option Key) (x : JsExtInput)
  | lock (asset : Key) (signer : Option Key)
  | revoke (asset : Key) (signer : Option Key) (x : DelegateInput)
  | transfer (asset : Key) (signer : Option Key) (recipient : Key) (group : Option Key)
  | unlock (asset : Key) (signer : Option Key)
  | unverify (asset creator : Key)
  | update (asset : Key) (authority buffer group payer sys : Option Key) (name : Option Bytes)
      (isMutable : Option Bool) (extension : Option JsExtInput)
  | verify (asset creator : Key)
  | write (asset : Key) (payer sys : Option Key) (overwrite : Bool) (bytes : Bytes)
  | group (asset group : Key) (authority : Option Key)
  | ungroup (asset group : Key) (authority : Option Key)
  | handover (asset : Key) (authority : Option Key) (newAuthority : Key)
  | remove (asset : Key) (authority group recipient : Option Key) (t : ExtType)
  | resize (asset : Key) (authority : Option Key) (payer : Option (Key × Bool)) (sys : Option Key)
      (s : JsStrategy)

/-- The system program is filled in when there is a payer — allocate.ts:109-117, create.ts:166-174,
resize.ts:114-122, update.ts:149-157. -/
def jsSystem (payer : Option (Key × Bool)) (sys : Option Key) : Option (Key × Bool) :=
  match sys, payer with
  | some s, _ => jsAddress s
  | none, some _ => jsAddress Key.system
  | none, none => none

/-- The accounts with their defaults, by index — allocate.ts:87-118, approve.ts:83-108, burn.ts:70-92,
close.ts:66-78, create.ts:118-175, group.ts:68-90, handover.ts:72-94, lock.ts:66-83,
remove.ts:85-118, resize.ts:81-123, revoke.ts:81-101, transfer.ts:74-101, ungroup.ts:68-90,
unlock.ts:66-83, unverify.ts:70-82, update.ts:109-158, verify.ts:66-78, write.ts:86-118. -/
def JsInput.accounts (ctx : JsContext) : JsInput → List JsResolved
  | .close buffer recipient => [⟨jsSigner buffer, true⟩, ⟨jsAddress recipient, true⟩]
  | .burn asset signer recipient g =>
    [⟨jsAddress asset, true⟩, ⟨jsSigner signer, true⟩, ⟨recipient.bind jsAddress, true⟩,
      ⟨g.bind jsAddress, true⟩]
  | .create asset authority owner g groupAuthority payer sys _ _ _ _ =>
    let payer := payer.bind jsSigner
    [⟨jsSigner asset, true⟩, ⟨authority.or (jsSigner ctx.identity), false⟩,
      ⟨(owner.bind jsAddress).or (jsAddress ctx.identity), false⟩, ⟨g.bind jsAddress, true⟩,
      ⟨groupAuthority.bind jsSigner, false⟩, ⟨payer, true⟩, ⟨jsSystem payer sys, false⟩]
  | .approve asset owner delegate _ =>
    [⟨jsAddress asset, true⟩, ⟨(owner.bind jsSigner).or (jsSigner ctx.identity), false⟩,
      ⟨jsAddress delegate, false⟩]
  | .allocate asset payer sys _ =>
    let payer := payer.bind jsSigner
    [⟨jsSigner asset, true⟩, ⟨payer, true⟩, ⟨jsSystem payer sys, false⟩]
  | .lock asset signer | .revoke asset signer _ | .unlock asset signer =>
    [⟨jsAddress asset, true⟩, ⟨(signer.bind jsSigner).or (jsSigner ctx.identity), false⟩]
  | .transfer asset signer recipient g =>
    [⟨jsAddress asset, true⟩, ⟨(signer.bind jsSigner).or (jsSigner ctx.identity), false⟩,
      ⟨jsAddress recipient, false⟩, ⟨g.bind jsAddress, false⟩]
  | .unverify asset creator | .verify asset creator =>
    [⟨jsAddress asset, true⟩, ⟨jsSigner creator, false⟩]
  | .update asset authority buffer g payer sys _ _ _ =>
    let payer := payer.bind jsSigner
    [⟨jsAddress asset, true⟩, ⟨(authority.bind jsSigner).or (jsSigner ctx.identity), false⟩,
      ⟨buffer.bind jsAddress, true⟩, ⟨g.bind jsAddress, false⟩, ⟨payer, true⟩,
      ⟨jsSystem payer sys, false⟩]
  | .write asset payer sys _ _ =>
    [⟨jsSigner asset, true⟩, ⟨(payer.bind jsSigner).or (jsSigner ctx.payer), true⟩,
      ⟨(sys.bind jsAddress).or (jsAddress Key.system), false⟩]
  | .group asset g authority | .ungroup asset g authority =>
    [⟨jsAddress asset, true⟩, ⟨jsAddress g, true⟩,
      ⟨(authority.bind jsSigner).or (jsSigner ctx.identity), false⟩]
  | .handover asset authority newAuthority =>
    [⟨jsAddress asset, true⟩, ⟨(authority.bind jsSigner).or (jsSigner ctx.identity), false⟩,
      ⟨jsSigner newAuthority, false⟩]
  | .remove asset authority g recipient _ =>
    [⟨jsAddress asset, true⟩, ⟨(authority.bind jsSigner).or (jsSigner ctx.identity), false⟩,
      ⟨g.bind jsAddress, false⟩, ⟨(recipient.bind jsAddress).or (jsAddress ctx.identity), true⟩]
  | .resize asset authority payer sys _ =>
    let payer := payer.or (jsSigner ctx.payer)
    [⟨jsAddress asset, true⟩, ⟨(authority.bind jsSigner).or (jsSigner ctx.identity), false⟩,
      ⟨payer, true⟩, ⟨jsSystem payer sys, false⟩]

/-- `get…InstructionDataSerializer().serialize` — the discriminator and the arguments with their
defaults (create.ts:93-99, update.ts:84-90). -/
def JsInput.data : JsInput → Except Err Bytes
  | .close .. => jsPutNum 1 0
  | .burn .. => jsPutNum 1 1
  | .create _ _ _ _ _ _ _ name standard isMutable extensions => do
    let d ← jsPutNum 1 2
    let n ← jsPutBytes name
    let s ← jsPutEnum (jsStandard (standard.getD .nonFungible))
    let e ← jsPutOption (jsPutArray jsPutExtInput) extensions
    return d ++ n ++ s ++ jsPutBool (isMutable.getD true) ++ e
  | .approve _ _ _ x => do
    let d ← jsPutNum 1 3
    let b ← jsPutDelegateInput x
    return d ++ b
  | .allocate _ _ _ x => do
    let d ← jsPutNum 1 4
    let b ← jsPutExtInput x
    return d ++ b
  | .lock .. => jsPutNum 1 5
  | .revoke _ _ x => do
    let d ← jsPutNum 1 6
    let b ← jsPutDelegateInput x
    return d ++ b
  | .transfer .. => jsPutNum 1 7
  | .unlock .. => jsPutNum 1 8
  | .unverify .. => jsPutNum 1 9
  | .update _ _ _ _ _ _ name isMutable extension => do
    let d ← jsPutNum 1 10
    let n ← jsPutOption jsPutBytes name
    let m ← jsPutOption (fun b => .ok (jsPutBool b)) isMutable
    let e ← jsPutOption jsPutExtInput extension
    return d ++ n ++ m ++ e
  | .verify .. => jsPutNum 1 11
  | .write _ _ _ overwrite bytes => do
    let d ← jsPutNum 1 12
    let b ← jsPutBytes bytes
    return d ++ jsPutBool overwrite ++ b
  | .group .. => jsPutNum 1 13
  | .ungroup .. => jsPutNum 1 14
  | .handover .. => jsPutNum 1 15
  | .remove _ _ _ _ t => do
    let d ← jsPutNum 1 16
    let b ← jsPutEnum (jsExtType t)
    return d ++ b
  | .resize _ _ _ _ s => do
    let d ← jsPutNum 1 17
    let b ← jsPutStrategy s
    return d ++ b

/-- The instruction — the rest of the files. `programId` is
`context.programs.getPublicKey('asset', …)`. -/
def jsInstruction (programId : Key) (ctx : JsContext) (x : JsInput) : Except Err ClientIx := do
  let data ← x.data
  return ⟨jsMetas programId (x.accounts ctx), data⟩

/-! ## The option `proxy` -/

/-- The functions with the option `proxy` — approve.ts, burn.ts, group.ts, handover.ts, lock.ts,
remove.ts, resize.ts, revoke.ts, transfer.ts, ungroup.ts, unlock.ts, unverify.ts, update.ts, verify.ts:
`'asset'` is bound to the proxy program, and the asset program is added at the end of the accounts. -/
def jsProxied (proxy assetId : Key) (ctx : JsContext) (x : JsInput) : Except Err ClientIx := do
  let i ← jsInstruction proxy ctx x
  return { i with metas := i.metas ++ [⟨assetId, false, false⟩] }

end Verif
