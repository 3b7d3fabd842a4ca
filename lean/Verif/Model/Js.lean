import Verif.Model.Extensions
import Verif.Model.Client

/-!
# The JavaScript client: reading and writing account data

clients/js/asset/src. The client is written with the serialisers of umi, which are not part of the
repository: `u8`, `u32`, `u64` and `publicKey` throw when bytes are missing (or, writing, when the
number is too large); `bool` is true for the byte 1 only; `scalarEnum` throws on numbers outside the
enum; `string({ size: u8() })` is a length byte and that many bytes; `array(…, 'remainder')` reads
items until the end. A reader takes the buffer from its offset on and returns the bytes after what it
read. A throw is `.error .panic`.

A JavaScript string is represented by its UTF-8 bytes. Reading a string goes through `TextDecoder`,
which is the parameter `dec` (it may replace invalid bytes and drop a byte order mark), and then
umi's `utf8` removes the null characters.
-/

namespace Verif

/-! ## Serialisers of umi -/

/-- Reading a number of `n` bytes. -/
def jsNum (n : Nat) (b : Bytes) : Except Err (Nat × Bytes) :=
  if b.length < n then .error .panic else .ok (leNat (b.take n), b.drop n)

/-- Reading a public key. -/
def jsKey (b : Bytes) : Except Err (Key × Bytes) :=
  if b.length < 32 then .error .panic else .ok (Key.ofBytes (b.take 32), b.drop 32)

/-- Reading a boolean: the byte 1 is true, every other byte is false. -/
def jsBool (b : Bytes) : Except Err (Bool × Bytes) := do
  let (n, rest) ← jsNum 1 b
  return (n == 1, rest)

/-- Reading the number of an enum whose last number is `last`. -/
def jsEnum (size last : Nat) (b : Bytes) : Except Err (Nat × Bytes) := do
  let (n, rest) ← jsNum size b
  if last < n then .error .panic else return (n, rest)

/-- The text of the bytes of a string. -/
def jsText (dec : Bytes → Bytes) (s : Bytes) : Bytes := (dec s).filter (· ≠ 0)

/-- Reading a string with a length byte. -/
def jsStr (dec : Bytes → Bytes) (b : Bytes) : Except Err (Bytes × Bytes) := do
  let (n, rest) ← jsNum 1 b
  if rest.length < n then .error .panic else return (jsText dec (rest.take n), rest.drop n)

/-- Reading items until the end. `fuel` bounds the number of items; every item takes at least one
byte, and `jsRest` supplies more than there are bytes. -/
def jsItems {α : Type} (item : Bytes → Except Err (α × Bytes)) : Nat → Bytes → Except Err (List α)
  | 0, _ => .error .diverge
  | fuel + 1, b =>
    if b.isEmpty then .ok []
    else do
      let (x, rest) ← item b
      let xs ← jsItems item fuel rest
      return x :: xs

@[inherit_doc jsItems]
def jsRest {α : Type} (item : Bytes → Except Err (α × Bytes)) (b : Bytes) : Except Err (List α) :=
  jsItems item (b.length + 1) b

/-- Writing a number of `n` bytes. -/
def jsPutNum (n v : Nat) : Except Err Bytes :=
  if v < 256 ^ n then .ok (toLE n v) else .error .panic

/-- Writing a string with a length byte. -/
def jsPutStr (s : Bytes) : Except Err Bytes := do
  let n ← jsPutNum 1 s.length
  return n ++ s

/-- Writing a boolean. -/
def jsPutBool (b : Bool) : Bytes := [if b then 1 else 0]

/-- Writing items one after the other. -/
def jsPutAll {α : Type} (f : α → Except Err Bytes) : List α → Except Err Bytes
  | [] => .ok []
  | x :: xs => do
    let b ← f x
    let bs ← jsPutAll f xs
    return b ++ bs

/-! ## Constraints -/

/-- The account and the keys of `OwnedBy` and `PubkeyMatch`: the account is an enum of three stored
as a `u64` — constraints/ownedBy.ts:34-41, pubkeyMatch.ts:34-41, index.ts:160-178. -/
def jsKeys (b : Bytes) : Except Err (Nat × List Key) := do
  let (a, rest) ← jsEnum 8 2 b
  let ks ← jsRest jsKey rest
  return (a, ks)

mutual
/-- `getConstraintSerializer().deserialize` — constraints/index.ts:31-45, with
`wrapSerializerInConstraintHeader` (127-133): the operator is the first byte alone, the header is two
`u32`, and the content is cut to the size without complaint when bytes are missing. -/
def jsC : Nat → Bytes → Except Err (Cst × Bytes)
  | 0, _ => .error .diverge
  | fuel + 1, b =>
    match b with
    | [] => .error .panic
    | ty :: _ =>
      if 5 < ty.toNat then .error .panic
      else if b.length < 8 then .error .panic
      else
        let size := u32At b 4
        let body := (b.drop 8).take size
        let rest := b.drop (8 + size)
        if ty = 0 then do return (Cst.and (← jsL fuel body), rest)
        else if ty = 1 then do return (Cst.not (← jsC fuel body).1, rest)
        else if ty = 2 then do return (Cst.or (← jsL fuel body), rest)
        else if ty = 3 then do
          let (a, ks) ← jsKeys body
          return (Cst.ownedBy a ks, rest)
        else if ty = 4 then do
          let (a, ks) ← jsKeys body
          return (Cst.pubkeyMatch a ks, rest)
        else return (Cst.empty, rest)

/-- The arrays of `And` and `Or` — constraints/and.ts:23-29, or.ts:23-29. -/
def jsL : Nat → Bytes → Except Err (List Cst)
  | 0, _ => .error .diverge
  | fuel + 1, b =>
    if b.isEmpty then .ok []
    else do
      let (c, rest) ← jsC fuel b
      let cs ← jsL fuel rest
      return c :: cs
end

/-- Reading a constraint, with enough fuel. -/
def jsConstraint (b : Bytes) : Except Err (Cst × Bytes) := jsC (b.length + 2) b

/-- Writing an operator: its header and its content — constraints/index.ts:119-126. -/
def jsPutOp (ty : Nat) (body : Bytes) : Except Err Bytes := do
  let t ← jsPutNum 4 ty
  let n ← jsPutNum 4 body.length
  return t ++ n ++ body

/-- Writing account and keys. -/
def jsPutKeys (a : Nat) (ks : List Key) : Except Err Bytes :=
  if 2 < a then .error .panic else do
    let n ← jsPutNum 8 a
    return n ++ ks.flatMap (·.1)

mutual
/-- `getConstraintSerializer().serialize` — constraints/index.ts:35-36. -/
def jsPutC : Cst → Except Err Bytes
  | .and cs => do jsPutOp 0 (← jsPutL cs)
  | .not c => do jsPutOp 1 (← jsPutC c)
  | .or cs => do jsPutOp 2 (← jsPutL cs)
  | .ownedBy a ks => do jsPutOp 3 (← jsPutKeys a ks)
  | .pubkeyMatch a ks => do jsPutOp 4 (← jsPutKeys a ks)
  | .empty => jsPutOp 5 []

@[inherit_doc jsPutC]
def jsPutL : List Cst → Except Err Bytes
  | [] => .ok []
  | c :: cs => do
    let b ← jsPutC c
    let bs ← jsPutL cs
    return b ++ bs
end

/-! ## Extensions -/

/-- The value of a property — extensions/properties.ts:82-85, with the type given by the constructor. -/
inductive JsValue
  | text (s : Bytes)
  | number (n : Nat)
  | boolean (b : Bool)
  deriving DecidableEq, Repr

/-- A creator — generated/types/creator.ts. -/
structure JsCreator where
  address : Key
  verified : Bool
  share : Nat
  deriving DecidableEq, Repr

/-- `TypedExtension` — extensions/index.ts:38-49. Arrays of numbers below 256 are byte lists. -/
inductive JsExt
  | attributes (values : List (Bytes × Bytes))
  | blob (contentType data : Bytes)
  | creators (values : List JsCreator)
  | links (values : List (Bytes × Bytes))
  | metadata (m : Metadata)
  | grouping (size maxSize : Nat) (delegate : Option Key)
  | royalties (basisPoints : Nat) (constraint : Cst)
  | manager (address : Option Key) (roles : List Role)
  | proxy (program : Key) (seeds : Bytes) (bump : Nat) (authority : Option Key)
  | properties (values : List (Bytes × JsValue))
  | bucket (data : Bytes)

/-- The field `type`. -/
def JsExt.type : JsExt → ExtType
  | .attributes _ => .attributes
  | .blob .. => .blob
  | .creators _ => .creators
  | .links _ => .links
  | .metadata _ => .metadata
  | .grouping .. => .grouping
  | .royalties .. => .royalties
  | .manager .. => .manager
  | .proxy .. => .proxy
  | .properties _ => .properties
  | .bucket _ => .bucket

/-- A trait or a link: two strings — generated/types/trait.ts, link.ts. -/
def jsPair (dec : Bytes → Bytes) (b : Bytes) : Except Err ((Bytes × Bytes) × Bytes) := do
  let (n, r) ← jsStr dec b
  let (v, r) ← jsStr dec r
  return ((n, v), r)

/-- A creator — generated/types/creator.ts. -/
def jsCreator (b : Bytes) : Except Err (JsCreator × Bytes) := do
  let (a, r) ← jsKey b
  let (v, r) ← jsBool r
  let (s, r) ← jsNum 1 r
  return (⟨a, v, s⟩, r)

/-- A property: the name, a type byte, and the value by type —
extensions/properties.ts:69-101, 120-166. -/
def jsProperty (dec : Bytes → Bytes) (b : Bytes) : Except Err ((Bytes × JsValue) × Bytes) := do
  let (n, r) ← jsStr dec b
  match r with
  | [] => .error .panic
  | ty :: _ =>
    if ty = 0 then do
      let (_, r) ← jsEnum 1 2 r
      let (s, r) ← jsStr dec r
      return ((n, .text s), r)
    else if ty = 1 then do
      let (_, r) ← jsEnum 1 2 r
      let (v, r) ← jsNum 8 r
      return ((n, .number v), r)
    else if ty = 2 then do
      let (_, r) ← jsEnum 1 2 r
      let (v, r) ← jsBool r
      return ((n, .boolean v), r)
    else .error .panic

/-- `getExtensionSerializerFromType(type).deserialize` — extensions/index.ts:51-81,
extensions/royalties.ts:20-28, generated/types/{attributes,blob,bucket,creators,delegate,grouping,
links,manager,metadata,proxy}.ts. Bytes after the last field are ignored. -/
def jsReadExt (dec : Bytes → Bytes) (t : ExtType) (b : Bytes) : Except Err JsExt :=
  match t with
  | .none => .error .panic
  | .attributes => do return .attributes (← jsRest (jsPair dec) b)
  | .blob => do
    let (ct, r) ← jsStr dec b
    return .blob ct r
  | .creators => do return .creators (← jsRest jsCreator b)
  | .links => do return .links (← jsRest (jsPair dec) b)
  | .metadata => do
    let (s, r) ← jsStr dec b
    let (d, r) ← jsStr dec r
    let (u, r) ← jsStr dec r
    let (i, _) ← jsStr dec r
    return .metadata ⟨s, d, u, i⟩
  | .grouping => do
    let (s, r) ← jsNum 8 b
    let (m, r) ← jsNum 8 r
    let (d, _) ← jsKey r
    return .grouping s m (jsDecodeKey d)
  | .royalties => do
    let (bp, r) ← jsNum 8 b
    let (c, _) ← jsConstraint r
    return .royalties bp c
  | .manager => do
    let (a, r) ← jsKey b
    let (m, _) ← jsNum 1 r
    return .manager (jsDecodeKey a) (jsDecodeRoles (UInt8.ofNat m))
  | .proxy => do
    let (p, r) ← jsKey b
    -- `array(u8(), { size: 32 })`
    if r.length < 32 then .error .panic
    let seeds := r.take 32
    let (bump, r) ← jsNum 1 (r.drop 32)
    let (a, _) ← jsKey r
    return .proxy p seeds bump (jsDecodeKey a)
  | .properties => do return .properties (← jsRest (jsProperty dec) b)
  | .bucket => .ok (.bucket b)

/-- Two strings. -/
def jsPutPair (x : Bytes × Bytes) : Except Err Bytes := do
  let n ← jsPutStr x.1
  let v ← jsPutStr x.2
  return n ++ v

/-- A creator. -/
def jsPutCreator (c : JsCreator) : Except Err Bytes := do
  let s ← jsPutNum 1 c.share
  return c.address.1 ++ jsPutBool c.verified ++ s

/-- A property. -/
def jsPutProperty (x : Bytes × JsValue) : Except Err Bytes := do
  let n ← jsPutStr x.1
  match x.2 with
  | .text s => do return n ++ [0] ++ (← jsPutStr s)
  | .number v => do return n ++ [1] ++ (← jsPutNum 8 v)
  | .boolean b => return n ++ [2] ++ jsPutBool b

/-- `getExtensionSerializerFromType(type).serialize`, same files. -/
def jsWriteExt : JsExt → Except Err Bytes
  | .attributes l => jsPutAll jsPutPair l
  | .blob ct data => do return (← jsPutStr ct) ++ data
  | .creators l => jsPutAll jsPutCreator l
  | .links l => jsPutAll jsPutPair l
  | .metadata m => do
    let s ← jsPutStr m.symbol
    let d ← jsPutStr m.description
    let u ← jsPutStr m.uri
    let i ← jsPutStr m.imageUri
    return s ++ d ++ u ++ i
  | .grouping s m d => do
    let s ← jsPutNum 8 s
    let m ← jsPutNum 8 m
    return s ++ m ++ (jsEncodeKey d).1
  | .royalties bp c => do
    let n ← jsPutNum 8 bp
    let b ← jsPutC c
    return n ++ b
  | .manager a rs =>
    match jsEncodeRoles rs with
    | some m => .ok ((jsEncodeKey a).1 ++ [m])
    | none => .error .panic
  | .proxy p seeds bump a => do
    if seeds.length ≠ 32 then .error .panic
    let n ← jsPutNum 1 bump
    return p.1 ++ seeds ++ n ++ (jsEncodeKey a).1
  | .properties l => jsPutAll jsPutProperty l
  | .bucket data => .ok data

/-! ## Accounts -/

/-- What the client makes of an asset account — hooked/internalAssetAccountData.ts:16-22 and
generated/types/internalAssetAccountData.ts. -/
structure JsAsset where
  state : Nat
  standard : Nat
  isMutable : Bool
  owner : Key
  group : Option Key
  authority : Key
  delegate : Option (Key × List Role)
  name : Bytes
  extensions : List JsExt

/-- The loop over the extensions — hooked/internalAssetAccountData.ts:58-83. A type the client does
not know is skipped; the data of Metadata is read up to the boundary, every other up to the length;
`subarray` cuts at the end of the buffer. -/
def jsExts (dec : Bytes → Bytes) (d : Bytes) : Nat → Nat → Except Err (List JsExt)
  | 0, _ => .error .diverge
  | fuel + 1, off =>
    if d.length ≤ off then .ok []
    else if d.length < off + 16 then .error .panic
    else
      let h := hdrAt d off
      if h.ty = 0 then .ok []
      else match ExtType.ofU32 h.ty with
        | none => jsExts dec d fuel h.bnd
        | some t => do
          let stop := if t = .metadata then h.bnd else off + 16 + h.len
          let v ← jsReadExt dec t (slice d (off + 16) (stop - (off + 16)))
          let vs ← jsExts dec d fuel h.bnd
          return v :: vs

/-- `deserialize` — hooked/internalAssetAccountData.ts:42-93. -/
def jsAsset (dec : Bytes → Bytes) (d : Bytes) : Except Err JsAsset := do
  let (disc, r) ← jsEnum 1 1 d
  let (state, r) ← jsEnum 1 1 r
  let (standard, r) ← jsEnum 1 3 r
  let (isMut, r) ← jsBool r
  let (owner, r) ← jsKey r
  let (group, r) ← jsKey r
  let (authority, r) ← jsKey r
  let (delegate, r) ← jsKey r
  let (roles, r) ← jsNum 1 r
  -- `string({ size: 35 })`
  if r.length < 35 then .error .panic
  if disc ≠ 1 then .error .panic
  let exts ← jsExts dec d (d.length + 1) 168
  return ⟨state, standard, isMut, owner, jsDecodeKey group, authority,
    (jsDecodeKey delegate).map fun a => (a, jsDecodeRoles (UInt8.ofNat roles)),
    jsText dec (r.take 35), exts⟩

/-- `getExtension` — extensions/index.ts:88-97. -/
def JsAsset.get (A : JsAsset) (t : ExtType) : Option JsExt := A.extensions.find? fun e => e.type = t

end Verif
