import Verif.Model.Ext
import Verif.Model.Constraints

/-!
# Extension payloads: readers, builders and lifecycle hooks

programs/asset/types/src/extensions/*.rs. Strings are byte lists; the UTF-8 check of the
prefix strings and alignment failures are not modelled (the real code panics on more
inputs than the model).
-/

namespace Verif

/-! ## Prefix strings (podded `U8PrefixStr`) -/

/-- `U8PrefixStr::from_bytes` (podded): one length byte, then the bytes. Panics when the
input is too short. Returns the string and its `size()` (prefix included). -/
def readStr (b : Bytes) : Except Err (Bytes × Nat) :=
  match b with
  | [] => .error .panic
  | n :: rest =>
    if rest.length < n.toNat then .error .panic else .ok (rest.take n.toNat, n.toNat + 1)

/-- `append(vec![0; s.len() + 1])`, `U8PrefixStrMut::new`, `copy_from_str` on a buffer of
exactly `s.len() + 1` bytes: the length byte (an `as u8` cast) and the bytes. -/
def writeStr (s : Bytes) : Bytes := UInt8.ofNat s.length :: s

/-! ## Attributes and Links -/

/-- `Attributes::from_bytes` / `AttributesMut::from_bytes_mut` (attributes.rs:40-50,
110-126), `Links::from_bytes` / `LinksMut::from_bytes_mut` (links.rs:29-39, 98-115): pairs of
prefix strings until the end. -/
def readPairs : Nat → Bytes → Except Err (List (Bytes × Bytes))
  | 0, _ => .error .diverge
  | fuel + 1, b =>
    if b.isEmpty then .ok []
    else do
      let (name, n) ← readStr b
      let (value, m) ← readStr (b.drop n)
      let rest ← readPairs fuel (b.drop (n + m))
      return (name, value) :: rest

@[inherit_doc readPairs]
def readPairList (b : Bytes) : Except Err (List (Bytes × Bytes)) := readPairs (b.length + 1) b

/-- `AttributesBuilder::add` (attributes.rs:171-187), `LinksBuilder::add`
(links.rs:158-174). -/
def pairsBuilderAdd (buf name value : Bytes) : Bytes := buf ++ writeStr name ++ writeStr value

/-- `Attributes::get` — attributes.rs:21-26. -/
def attributesGet (values : List (Bytes × Bytes)) (name : Bytes) : Option Bytes :=
  (values.find? (fun t => t.1 = name)).map (·.2)

/-! ## Blob and Bucket -/

/-- `Blob::from_bytes` / `BlobMut::from_bytes_mut` — blob.rs:21-25, 43-51. -/
def readBlob (b : Bytes) : Except Err (Bytes × Bytes) := do
  let (ct, n) ← readStr b
  return (ct, b.drop n)

/-- `BlobBuilder::set_data` — blob.rs:69-84. -/
def blobBuilderSet (contentType data : Bytes) : Bytes := writeStr contentType ++ data

/-- `Bucket::from_bytes` / `BucketMut::from_bytes_mut` — bucket.rs:15-17, 32-34. -/
def readBucket (b : Bytes) : Except Err Bytes := .ok b

/-- `BucketBuilder::set_data` — bucket.rs:52-60. -/
def bucketBuilderSet (data : Bytes) : Bytes := data

/-! ## Metadata -/

/-- `Metadata` — metadata.rs:13-25. -/
structure Metadata where
  symbol : Bytes
  description : Bytes
  uri : Bytes
  imageUri : Bytes
  deriving DecidableEq, Repr

/-- `Metadata::from_bytes` / `MetadataMut::from_bytes_mut` — metadata.rs:30-54, 93-131: the
fourth string is empty when there are no bytes left for it. -/
def readMetadata (b : Bytes) : Except Err Metadata := do
  let (symbol, n1) ← readStr b
  let (description, n2) ← readStr (b.drop n1)
  let (uri, n3) ← readStr (b.drop (n1 + n2))
  let rest := b.drop (n1 + n2 + n3)
  if rest.isEmpty then return ⟨symbol, description, uri, []⟩
  else do
    let (image, _) ← readStr rest
    return ⟨symbol, description, uri, image⟩

/-- One optional string of `MetadataBuilder::set`: `None` is a single zero byte. -/
def writeOptStr : Option Bytes → Bytes
  | some s => writeStr s
  | none => [0]

/-- `MetadataBuilder::set` — metadata.rs:149-205. -/
def metadataBuilderSet (symbol description uri imageUri : Option Bytes) : Bytes :=
  writeOptStr symbol ++ writeOptStr description ++ writeOptStr uri ++ writeOptStr imageUri

/-! ## Properties -/

/-- `Value` of a property — properties.rs:163-303 (`Text`, `Number`, `Boolean`; the boolean
is kept as the stored byte). -/
inductive PropValue
  | text (s : Bytes)
  | number (n : Nat)
  | boolean (b : UInt8)
  deriving DecidableEq, Repr

/-- The value part of `Property::from_bytes` — properties.rs:138-150, with `Text`
(209-215), `Number` (244-249) and `Boolean` (278-282); panics on an unknown type byte or
missing bytes. Returns the value and its `size()`. -/
def readPropValue (v : Bytes) : Except Err (PropValue × Nat) :=
  match v with
  | [] => .error .panic
  | ty :: rest =>
    if ty = 0 then do
      let (s, n) ← readStr rest
      return (.text s, n + 1)
    else if ty = 1 then
      if rest.length < 8 then .error .panic else .ok (.number (leNat (rest.take 8)), 9)
    else if ty = 2 then
      match rest with
      | [] => .error .panic
      | b :: _ => .ok (.boolean b, 2)
    else .error .panic

/-- `Properties::from_bytes` / `PropertiesMut::from_bytes_mut` — properties.rs:48-58,
111-121. -/
def readProps : Nat → Bytes → Except Err (List (Bytes × PropValue))
  | 0, _ => .error .diverge
  | fuel + 1, b =>
    if b.isEmpty then .ok []
    else do
      let (name, n) ← readStr b
      let (value, m) ← readPropValue (b.drop n)
      let rest ← readProps fuel (b.drop (n + m))
      return (name, value) :: rest

@[inherit_doc readProps]
def readPropList (b : Bytes) : Except Err (List (Bytes × PropValue)) :=
  readProps (b.length + 1) b

/-- `TypedValue::write_to` preceded by the type byte — properties.rs:306-351. -/
def writePropValue : PropValue → Bytes
  | .text s => 0 :: writeStr s
  | .number n => 1 :: toLE 8 n
  | .boolean b => [2, b]

/-- `PropertiesBuilder::add` (and the deprecated `add_text`, `add_number`,
`add_boolean`) — properties.rs:368-439. -/
def propsBuilderAdd (buf name : Bytes) (v : PropValue) : Bytes :=
  buf ++ writeStr name ++ writePropValue v

/-! ## Creators -/

/-- `Creator` — creators.rs:133-145. -/
structure Creator where
  address : Key
  verified : UInt8
  share : UInt8
  deriving DecidableEq, Repr

/-- `bytemuck::cast_slice` of `n` creators of 34 bytes. -/
def creatorsFrom : Nat → Bytes → List Creator
  | 0, _ => []
  | n + 1, b =>
    ⟨Key.ofBytes (b.take 32), byteAt b 32, byteAt b 33⟩ :: creatorsFrom n (b.drop 34)

/-- `Creators::from_bytes` / `CreatorsMut::from_bytes_mut`: `cast_slice` panics unless the
length is a multiple of 34 — creators.rs:34-37, 61-64. -/
def readCreators (b : Bytes) : Except Err (List Creator) :=
  if b.length % 34 ≠ 0 then .error .panic else .ok (creatorsFrom (b.length / 34) b)

/-- The bytes of one creator. -/
def creatorBytes (c : Creator) : Bytes := c.address.1 ++ [c.verified, c.share]

/-- The bytes behind a slice of creators. -/
def creatorsBytes (cs : List Creator) : Bytes := cs.flatMap creatorBytes

/-- `PodBool::from(bool)`. -/
def podBool (b : Bool) : UInt8 := if b then 1 else 0

/-- `bool::from(PodBool)`: any non-zero byte. -/
def podTrue (b : UInt8) : Bool := b != 0

/-- The `u8` running total of the shares, wrapping (release profile without
overflow checks) — creators.rs:70-81, 91-106. -/
def shareTotal (cs : List Creator) : UInt8 := cs.foldl (fun t c => t + c.share) 0

/-- `(authority == &creator.address).into()` when there is an authority, else `false` —
creators.rs:75-79, 99-103. -/
def initialVerified (authority : Option Key) (c : Creator) : UInt8 :=
  match authority with
  | some a => podBool (a = c.address)
  | none => podBool false

/-- `CreatorsMut::on_create` — creators.rs:69-88. -/
def creatorsOnCreate (cs : List Creator) (authority : Option Key) :
    Except Err (List Creator) :=
  let cs' := cs.map fun c => { c with verified := initialVerified authority c }
  if shareTotal cs' ≠ 100 then .error (.types .invalidCreatorsTotalShare) else .ok cs'

/-- `Creators::get` / `CreatorsMut::get`: the first creator with the address —
creators.rs:24-28, 51-55. -/
def creatorsGet (cs : List Creator) (a : Key) : Option Creator :=
  cs.find? (fun c => c.address = a)

/-- The last loop of `CreatorsMut::on_update` — creators.rs:112-127. -/
def creatorsKeepVerified (old new : List Creator) : Except Err Unit :=
  match old with
  | [] => .ok ()
  | c :: cs =>
    if podTrue c.verified then
      match creatorsGet new c.address with
      | some u =>
        if podTrue u.verified then creatorsKeepVerified cs new
        else .error (.types .cannotUnverifyCreator)
      | none => .error (.types .cannotRemoveVerifiedCreator)
    else creatorsKeepVerified cs new

/-- `CreatorsMut::on_update` — creators.rs:90-130. -/
def creatorsOnUpdate (old new : List Creator) (authority : Option Key) :
    Except Err (List Creator) :=
  let new' := new.map fun c =>
    { c with verified := match creatorsGet old c.address with
      | some o => o.verified
      | none => initialVerified authority c }
  if shareTotal new' ≠ 100 then .error (.types .invalidCreatorsTotalShare)
  else do
    creatorsKeepVerified old new'
    return new'

/-- `CreatorsBuilder` — creators.rs:159-167: the `u8` count and the buffer. -/
structure CreatorsBuilder where
  count : UInt8 := 0
  data : Bytes := []

/-- `CreatorsBuilder::add` — creators.rs:187-201. -/
def CreatorsBuilder.add (b : CreatorsBuilder) (address : Key) (verified : Bool)
    (share : UInt8) : CreatorsBuilder :=
  let data := b.data ++ zeros 34
  ⟨b.count + 1, splice data (b.count.toNat * 34) (creatorBytes ⟨address, podBool verified, share⟩)⟩

/-! ## Grouping -/

/-- `Grouping` — grouping.rs:23-34; `maxSize = 0` means unlimited (148-156) and the default
key means no delegate. -/
structure Grouping where
  size : Nat
  maxSize : Nat
  delegate : Key
  deriving DecidableEq, Repr

/-- `Grouping::from_bytes` / `GroupingMut::from_bytes_mut` — grouping.rs:39-54, 82-97:
two `split_at` (panic below 16 bytes); fewer than 32 bytes left for the delegate means
none; more than 32 bytes make the `bytemuck` cast panic. -/
def readGrouping (b : Bytes) : Except Err Grouping :=
  if b.length < 16 then .error .panic
  else if b.length < 48 then .ok ⟨u64At b 0, u64At b 8, Key.default⟩
  else if b.length = 48 then .ok ⟨u64At b 0, u64At b 8, keyAt b 16⟩
  else .error .panic

/-- Store to `*grouping.size`. -/
def setGroupSize (b : Bytes) (n : Nat) : Bytes := splice b 0 (toLE 8 n)

/-- `GroupingMut::on_create` — grouping.rs:101-107. -/
def groupingOnCreate (b : Bytes) : Except Err Bytes := do
  let g ← readGrouping b
  if 0 < g.size then .error (.types .invalidGroupSize) else return b

/-- `GroupingMut::on_update` — grouping.rs:109-121. -/
def groupingOnUpdate (old new : Bytes) : Except Err Bytes := do
  let o ← readGrouping old
  let n ← readGrouping new
  let new' := setGroupSize new o.size
  if n.maxSize ≠ 0 ∧ n.maxSize < o.size then .error (.types .invalidMaximumGroupSize)
  else return new'

/-- `GroupingBuilder::set` — grouping.rs:176-192. -/
def groupingBuilderSet (maxSize : Option Nat) (delegate : Option Key) : Bytes :=
  toLE 8 0 ++ toLE 8 (maxSize.getD 0) ++ (delegate.getD Key.default).1

/-! ## Royalties -/

/-- `Royalties` — royalties.rs:8-11. -/
structure Royalties where
  basisPoints : Nat
  constraint : Cst

/-- `Royalties::from_bytes` / `RoyaltiesMut::from_bytes_mut` — royalties.rs:16-26, 41-51. -/
def readRoyalties (b : Bytes) : Except Err Royalties := do
  if b.length < 8 then .error .panic
  else
    let c ← parseConstraint (b.drop 8)
    return ⟨u64At b 0, c⟩

/-- `RoyaltiesMut::on_create` and `on_update` — royalties.rs:55-64, 66-76: the (new) basis
points are checked. -/
def royaltiesCheck (b : Bytes) : Except Err Bytes := do
  let r ← readRoyalties b
  if 10000 < r.basisPoints then .error (.types .invalidRoyaltyBasisPoints) else return b

/-- `RoyaltiesBuilder::set` — royalties.rs:91-99. -/
def royaltiesBuilderSet (bp : Nat) (constraint : Bytes) : Bytes := toLE 8 bp ++ constraint

/-! ## Manager and Proxy -/

/-- `Manager::from_bytes` (`Delegate::load`, a prefix cast) — manager.rs:23-26, 49-52. -/
def readManager (b : Bytes) : Except Err Delegate :=
  if b.length < 33 then .error .panic else .ok ⟨keyAt b 0, byteAt b 32⟩

/-- `ManagerBuilder::set` — manager.rs:69-74. -/
def managerBuilderSet (x : Delegate) : Bytes := x.address.1 ++ [x.roles]

/-- `Proxy` — proxy.rs:15-27. -/
structure Proxy where
  program : Key
  seeds : Bytes
  bump : UInt8
  authority : Key
  deriving DecidableEq, Repr

/-- `Proxy::from_bytes` / `ProxyMut::from_bytes_mut`: exactly 97 bytes — proxy.rs:32-49,
87-104. -/
def readProxy (b : Bytes) : Except Err Proxy :=
  if b.length ≠ 97 then .error .panic
  else .ok ⟨keyAt b 0, slice b 32 32, byteAt b 64, keyAt b 65⟩

/-- `ProxyMut::on_update` — proxy.rs:108-114. -/
def proxyOnUpdate (old new : Bytes) : Except Err Bytes := do
  let o ← readProxy old
  let n ← readProxy new
  if o.program ≠ n.program ∨ o.seeds ≠ n.seeds ∨ o.bump ≠ n.bump then
    .error (.types .cannotModifyDerivationData)
  else return new

/-- `ProxyBuilder::set` — proxy.rs:129-149. -/
def proxyBuilderSet (program : Key) (seeds : Key) (bump : UInt8) (authority : Option Key) :
    Bytes :=
  program.1 ++ seeds.1 ++ [bump] ++ (authority.getD Key.default).1

/-! ## Generic lifecycle -/

/-- `on_create(extension_type, data, authority)`: the payload after the hook —
extensions/mod.rs:297-309 with the `Lifecycle` impls of the extensions. -/
def onCreate (t : ExtType) (b : Bytes) (authority : Option Key) : Except Err Bytes :=
  match t with
  | .none => .ok b
  | .attributes => do let _ ← readPairList b; return b
  | .blob => do let _ ← readBlob b; return b
  | .creators => do
    let cs ← readCreators b
    return creatorsBytes (← creatorsOnCreate cs authority)
  | .links => do let _ ← readPairList b; return b
  | .metadata => do let _ ← readMetadata b; return b
  | .grouping => groupingOnCreate b
  | .royalties => royaltiesCheck b
  | .manager => do let _ ← readManager b; return b
  | .proxy => do let _ ← readProxy b; return b
  | .properties => do let _ ← readPropList b; return b
  | .bucket => do let _ ← readBucket b; return b

/-- `on_update(extension_type, data, updated, authority)`: the new payload after the hook
(no hook changes the current data) — extensions/mod.rs:311-327. -/
def onUpdate (t : ExtType) (old new : Bytes) (authority : Option Key) : Except Err Bytes :=
  match t with
  | .none => .ok new
  | .attributes => do let _ ← readPairList old; let _ ← readPairList new; return new
  | .blob => do let _ ← readBlob old; let _ ← readBlob new; return new
  | .creators => do
    let o ← readCreators old
    let n ← readCreators new
    return creatorsBytes (← creatorsOnUpdate o n authority)
  | .links => do let _ ← readPairList old; let _ ← readPairList new; return new
  | .metadata => do let _ ← readMetadata old; let _ ← readMetadata new; return new
  | .grouping => groupingOnUpdate old new
  | .royalties => do let _ ← readRoyalties old; royaltiesCheck new
  | .manager => do let _ ← readManager old; let _ ← readManager new; return new
  | .proxy => proxyOnUpdate old new
  | .properties => do let _ ← readPropList old; let _ ← readPropList new; return new
  | .bucket => do let _ ← readBucket old; let _ ← readBucket new; return new

/-- `.map_err(|_| AssetError::ExtensionDataInvalid)` on a lifecycle result; panics stay
panics. -/
def mapLife {α : Type} : Except Err α → Except Err α
  | .error (.types _) => .error (.asset .extensionDataInvalid)
  | r => r

end Verif
