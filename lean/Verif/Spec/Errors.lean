import Verif.Model.Errors
import Verif.Spec.Accepts
import Verif.Spec.Birth
import Verif.Spec.Edits

/-!
# What an error of the program says about the request

`Reason E L accts i e`: the instruction `i` on the accounts `accts` deserves the error `e`. An
error about an asset says something about every asset `A` that the account stores; nothing is said
when the account does not store an asset in the normal form.
-/

namespace Verif.Spec

open Verif

/-- If the account stores an asset, it is as `P` says. -/
def Asset? (E : Env) (L : Ledger) (a : Key) (P : Asset → Prop) : Prop :=
  ∀ A, Stores E.program L a A → P A

/-- The accounts that have to be assets. -/
def needsAsset : Instr → List Nat
  | .close | .allocate _ | .write _ => []
  | .create _ => [3]
  | .group | .ungroup => [0, 1]
  | _ => [0]

/-- The account belongs to the program and is not an initialised asset. -/
def NoAsset (E : Env) (L : Ledger) (x : Key) : Prop :=
  (L x).owner = E.program ∧ ¬ IsAsset E.program L x

/-- The account has data of another kind than that of an uninitialised account. -/
def InUse (L : Ledger) (x : Key) : Prop := (L x).data ≠ [] ∧ byteAt (L x).data 0 ≠ 0

/-- At the offset `off` is the header of an extension of a known type. -/
def KnownAt (d : Bytes) (off : Nat) : Prop :=
  off + 16 ≤ d.length ∧ ∃ t : ExtType, t ≠ .none ∧ leNat (slice d off 4) = t.toU32

/-- There is no extension of a known type at the beginning of the extension area. -/
def NoExtension (L : Ledger) (x : Key) : Prop := ¬ KnownAt (L x).data 168

/-- Following the end offsets of the headers from one offset leads to the other. -/
inductive Follow (d : Bytes) : Nat → Nat → Prop
  | here (off : Nat) : Follow d off off
  | next {off m : Nat} (h : off + 16 ≤ d.length) (h0 : leNat (slice d off 4) ≠ 0)
      (hm : Follow d (leNat (slice d (off + 8) 4)) m) : Follow d off m

/-- There is a header for the type in the extension area. -/
def HasHeader (d : Bytes) (t : ExtType) : Prop :=
  ∃ m, Follow d 168 m ∧ m + 16 ≤ d.length ∧ leNat (slice d m 4) = t.toU32

/-- The data of the last extension is at the offset `off` and `n` bytes long. -/
def LastData (d : Bytes) (off n : Nat) : Prop :=
  ∃ m, Follow d 168 m ∧ KnownAt d m ∧ ¬ KnownAt d (leNat (slice d (m + 8) 4)) ∧
    off = m + 16 ∧ n = leNat (slice d (m + 4) 4)

/-- The account can become an asset: it has no data or is a buffer, and the extensions asked for
have a type and fit into an account. -/
def BecomesAsset (E : Env) (L : Ledger) (a : Key) (x : CreateInput) : Prop :=
  E.origLen a = (L a).data.length ∧ (L a).data.length ≤ 10485760 ∧ Sane (asked x) ∧
    ∃ es, Unborn L a es

/-- The request to create has extensions that are not in the account yet. -/
def BringsExtensions (x : CreateInput) : Prop := asked x ≠ []

/-- Who wants to add the member to the group when it is created. -/
def createGrouper (E : Env) (authority groupAuthority : Key) : Key :=
  if groupAuthority = E.program then authority else groupAuthority

/-- `s` may not add members to or take members from the group. -/
def NotGrouper (s : Key) (G : Asset) : Prop := ∀ p, IsGroup G p → ¬ MayGroup G p s

/-- Nothing can be stored for the extension update. -/
def NoUpdate (authority : Key) (e : ExtInput) (A : Asset) : Prop :=
  ∀ p, ¬ UpdatesTo authority e (lookup e.ty A.exts) p

/-- The reason for an error. -/
def Reason (E : Env) (L : Ledger) (accts : List Key) (i : Instr) : AssetError → Prop
  | .alreadyInitialized =>
    match i, accts with
    | .close, b :: _ => InUse L b
    | .write _, b :: _ => InUse L b
    | .allocate x, b :: _ => InUse L b ∨ HasHeader (L b).data x.ty
    | .create x, b :: _ => InUse L b ∨ BringsExtensions x
    | .update x, _ :: _ :: b :: _ => x.extension = none ∧ InUse L b
    | _, _ => False
  | .invalidAccountLength =>
    match i, accts with
    | .write _, b :: _ => (L b).data.length < 168 ∨
        ∃ off n, LastData (L b).data off n ∧ off + n < (L b).data.length
    | .allocate _, b :: _ => (L b).data ≠ [] ∧ (L b).data.length < 168
    | .create x, b :: _ => ((L b).data ≠ [] ∧ (L b).data.length < 168) ∨ BringsExtensions x
    | .update x, _ :: _ :: b :: _ => x.extension = none ∧ (L b).data.length < 184
    | _, _ => False
  | .incompleteExtensionData =>
    match i, accts with
    | .allocate _, b :: _ => ∃ off n, LastData (L b).data off n ∧ (L b).data.length < off + n
    | .create x, _ :: _ => BringsExtensions x
    | _, _ => False
  | .uninitialized => ∃ n ∈ needsAsset i, ∃ x, accts[n]? = some x ∧ NoAsset E L x
  | .extensionNotFound =>
    match i, accts with
    | .burn, a :: _ :: _ :: g :: _ => Asset? E L a fun A => A.group = g ∧
        Asset? E L g fun G => lookup .grouping G.exts = none
    | .create _, _ :: _ :: _ :: g :: _ => Asset? E L g fun G => lookup .grouping G.exts = none
    | .group, _ :: g :: _ => Asset? E L g fun G => lookup .grouping G.exts = none
    | .ungroup, _ :: g :: _ => Asset? E L g fun G => lookup .grouping G.exts = none
    | .verify, a :: _ => Asset? E L a fun A => lookup .creators A.exts = none
    | .unverify, a :: _ => Asset? E L a fun A => lookup .creators A.exts = none
    | .write _, b :: _ => NoExtension L b ∨ ∃ off n, LastData (L b).data off n ∧ off < 184
    | .update x, a :: _ :: b :: _ => Asset? E L a fun _ =>
        (x.extension = none ∧ NoExtension L b) ∨ ∃ e, x.extension = some e ∧ e.ty = .none
    | .remove t, a :: _ => Asset? E L a fun A => lookup t A.exts = none
    | _, _ => False
  | .invalidAlignment => False
  | .invalidBurnAuthority =>
    match i, accts with
    | .burn, a :: s :: _ => Asset? E L a fun A => A.owner ≠ s ∧ ¬ A.Delegated s .burn
    | _, _ => False
  | .invalidTransferAuthority =>
    match i, accts with
    | .transfer, a :: s :: _ => Asset? E L a fun A => A.owner ≠ s ∧ ¬ A.Delegated s .transfer
    | _, _ => False
  | .delegateNotFound =>
    match i, accts with
    | .lock, a :: s :: _ => Asset? E L a fun A =>
        A.owner ≠ s ∧ A.manager = none ∧ A.holderDelegate = none
    | .unlock, a :: s :: _ => Asset? E L a fun A =>
        A.owner ≠ s ∧ A.manager = none ∧ A.holderDelegate = none
    | _, _ => False
  | .delegateRoleNotActive =>
    match i, accts with
    | .lock, a :: s :: _ => Asset? E L a fun A =>
        ∃ x, governing A.manager A.holderDelegate = some x ∧ x.address = s ∧ ¬ HasRole x .lock
    | .unlock, a :: s :: _ => Asset? E L a fun A =>
        ∃ x, governing A.manager A.holderDelegate = some x ∧ x.address = s ∧ ¬ HasRole x .lock
    | _, _ => False
  | .invalidDelegate =>
    match i, accts with
    | .lock, a :: s :: _ => Asset? E L a fun A =>
        ∃ x, governing A.manager A.holderDelegate = some x ∧ x.address ≠ s
    | .unlock, a :: s :: _ => Asset? E L a fun A =>
        ∃ x, governing A.manager A.holderDelegate = some x ∧ x.address ≠ s
    | _, _ => False
  | .invalidAssetOwner =>
    match i, accts with
    | .approve _, a :: s :: _ => Asset? E L a fun A => A.owner ≠ s
    | _, _ => False
  | .lockedAsset => i.blockedByLock = true ∧
      ∃ x ∈ accts, (L x).owner = E.program ∧ byteAt (L x).data 0 = 1 ∧ byteAt (L x).data 1 = 1
  | .invalidAuthority =>
    match i, accts with
    | .revoke _, a :: s :: _ => Asset? E L a fun A =>
        A.owner ≠ s ∧ (A.delegate = Key.default ∨ A.delegate ≠ s)
    | .handover, a :: s :: _ => Asset? E L a fun A => A.authority ≠ s
    | .update _, a :: s :: _ => Asset? E L a fun A => A.authority ≠ s
    | .remove _, a :: s :: _ => Asset? E L a fun A => A.authority ≠ s
    | .resize _, a :: s :: _ => Asset? E L a fun A => A.authority ≠ s
    | .group, a :: g :: s :: _ => Asset? E L a fun A => Asset? E L g fun G =>
        A.authority ≠ G.authority ∨ NotGrouper s G
    | .ungroup, _ :: g :: s :: _ => Asset? E L g fun G => NotGrouper s G
    | .create _, _ :: au :: _ :: g :: ga :: _ => Asset? E L g fun G =>
        au ≠ G.authority ∨ NotGrouper (createGrouper E au ga) G
    | _, _ => False
  | .immutableAsset =>
    match i, accts with
    | .handover, a :: _ => Asset? E L a fun A => A.mutableByte = 0
    | .update _, a :: _ => Asset? E L a fun A => A.mutableByte = 0
    | .remove _, a :: _ => Asset? E L a fun A => A.mutableByte = 0
    | .resize _, a :: _ => Asset? E L a fun A => A.mutableByte = 0
    | _, _ => False
  | .cannotTransferSoulbound =>
    match i, accts with
    | .transfer, a :: _ => Asset? E L a fun A => A.standard = 2
    | _, _ => False
  | .extensionDataInvalid =>
    match i, accts with
    | .group, _ :: g :: _ => Asset? E L g fun G => ∀ p, IsGroup G p →
        limitOf p ≠ 0 ∧ limitOf p ≤ membersOf p
    | .remove t, _ => t = .manager ∨ t = .proxy
    | .update x, a :: s :: _ => Asset? E L a fun A => ∀ e, x.extension = some e → NoUpdate s e A
    | .create _, _ => True
    | .write _, _ => True
    | _, _ => False
  | .invalidGroup =>
    match i, accts with
    | .transfer, a :: _ :: _ :: g :: _ => Asset? E L a fun A => A.group ≠ Key.default ∧
        (A.group ≠ g ∨ ¬ ∃ G, Stores E.program L g G)
    | _, _ => False
  | .assertionFailure =>
    match i, accts with
    | .transfer, a :: s :: r :: g :: _ => Asset? E L a fun A =>
        ¬ RoyaltiesAllow E L a s r A ∨
          (A.group = g ∧ Asset? E L g fun G => ¬ RoyaltiesAllow E L a s r G)
    | _, _ => False
  | .groupNotEmpty =>
    match i, accts with
    | .burn, a :: _ => Asset? E L a fun A =>
        ∃ p, lookup .grouping A.exts = some p ∧ membersOf p ≠ 0
    | .remove t, a :: _ => t = .grouping ∧ Asset? E L a fun A =>
        ∃ p, lookup .grouping A.exts = some p ∧ membersOf p ≠ 0
    | _, _ => False
  | .alreadyInGroup =>
    match i, accts with
    | .group, a :: _ => Asset? E L a fun A => A.group ≠ Key.default
    | .create x, a :: _ => ¬ BecomesAsset E L a x
    | _, _ => False
  | .extensionLengthInvalid =>
    match i with
    | .allocate x => ∃ p, x.data = some p ∧ x.length.toNat < p.length
    | .create x => ∃ e ∈ asked x, ∃ p, e.data = some p ∧ e.length.toNat < p.length
    | .update x => ∃ e p, x.extension = some e ∧ e.data = some p ∧ e.length.toNat < p.length
    | _ => False

/-- An extension is to be removed that is not there, or that is the last one, without data, and
without anything behind it. -/
def Overlooked (E : Env) (L : Ledger) (accts : List Key) (i : Instr) : Prop :=
  ∃ t a rest, i = .remove t ∧ accts = a :: rest ∧
    Asset? E L a fun A => lookup t A.exts = none ∨ ¬ Followed L a A t

/-- The tables of the clients and the descriptions agree on an error. -/
def AgreedOn (e : AssetError) : Prop :=
  rustAssetError e.code = some ⟨e.code, e.name, e.message⟩ ∧
  jsAssetError e.code = some ⟨e.name, e.code, e.message⟩ ∧
  jsAssetErrorNamed e.name = some ⟨e.name, e.code, e.message⟩ ∧
  idlErrors[e.code]? = some ⟨e.code, e.name, e.message⟩ ∧
  codamaErrors[e.code]? = some ⟨e.code, e.name.decapitalize, e.message⟩

end Verif.Spec
