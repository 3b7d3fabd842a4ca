import Verif.Model.Proc

/-!
# Instruction processors, part two: accounts, extensions, creation

`Allocate`, `Write`, `Create`, `Update`, `Remove`, `Resize`:
programs/asset/program/src/processor/*.rs.
-/

namespace Verif

/-- `ExtensionInput` — instruction.rs:158-170. -/
structure ExtInput where
  ty : ExtType
  length : UInt32
  data : Option Bytes
  deriving DecidableEq, Repr

/-- `MetadataInput` — instruction.rs:172-187. -/
structure CreateInput where
  name : Bytes
  standard : Standard
  isMutable : Bool
  extensions : Option (List ExtInput)
  deriving DecidableEq, Repr

/-- `UpdateInput` — instruction.rs:189-203. -/
structure UpdateInput where
  name : Option Bytes
  isMutable : Option Bool
  extension : Option ExtInput
  deriving DecidableEq, Repr

/-- `DataInput` — instruction.rs:147-156. -/
structure WriteInput where
  overwrite : Bool
  bytes : Bytes
  deriving DecidableEq, Repr

/-- `Strategy` — instruction.rs:205-217. -/
inductive Strategy
  | trim
  | extend (value : UInt16)
  deriving DecidableEq, Repr

/-- `sol_memcpy(&mut data[off..], bytes, bytes.len())`: the slice panics when `off` is past
the end; writing past the end is out of bounds. -/
def memcpy (d : Bytes) (off : Nat) (bs : Bytes) : Except Err Bytes :=
  if d.length < off then .error .panic
  else if d.length < off + bs.length then .error .oob
  else .ok (splice d off bs)

/-- `sol_memmove(ptr.add(dst), ptr.add(src), n)` on raw account data. -/
def memmove (d : Bytes) (dst src n : Nat) : Except Err Bytes :=
  if n = 0 then .ok d
  else if d.length < src + n ∨ d.length < dst + n then .error .oob
  else .ok (splice d dst (slice d src n))

/-- `Extension::load_mut(&mut data[off..off + 16])` followed by the three setters. -/
def writeHdr (d : Bytes) (off ty len bnd : Nat) : Except Err Bytes :=
  if d.length < off + extLen then .error .panic
  else .ok (setHdr d off ty len bnd)

/-! ## Allocate -/

/-- `create_account` — allocate.rs:136-179, and the same code in create.rs:47-104. -/
def createAccount (E : Env) (L : Ledger) (asset : Key) (payer sys : Option Key) (space : Nat) :
    Except Err Ledger :=
  match payer with
  | none => .error .notEnoughAccountKeys
  | some p => do
    require (E.signer p) .missingRequiredSignature
    match sys with
    | none => .error .notEnoughAccountKeys
    | some s => do
      require (s = Key.system) .incorrectProgramId
      systemCreate E L p asset (E.rent space) space E.program

/-- Where the new extension goes and whether the account exists — allocate.rs:43-94. -/
def allocateOffset (E : Env) (L : Ledger) (asset : Key) (t : ExtType) : Except Err (Bool × Nat) :=
  let d := (L asset).data
  if d = [] then .ok (false, assetLen)
  else do
    require ((L asset).owner = E.program) .illegalOwner
    require (assetLen ≤ d.length) (.asset .invalidAccountLength)
    require (hDisc d = discUninit) (.asset .alreadyInitialized)
    let c ← assetContains t d
    require (c = false) (.asset .alreadyInitialized)
    match ← lastExtension d with
    | some (h, off) => do
      require (h.len + off ≤ d.length) (.asset .incompleteExtensionData)
      return (true, h.bnd)
    | none => return (true, assetLen)

/-- `if !data.is_empty() { sol_memcpy(&mut account_data[off..], data, data.len()) }` —
allocate.rs:230-232, update.rs:357-376. -/
def copyData (d : Bytes) (off : Nat) (data : Bytes) : Except Err Bytes :=
  if data = [] then .ok d else memcpy d off data

/-- Length of the account once the extension is saved — allocate.rs:197-208. -/
def allocateExtended (length : UInt32) (offset : Nat) (data : Bytes) : Nat :=
  if length.toNat = data.length % two32 then align8 (offset + extLen + length.toNat)
  else offset + extLen + data.length

/-- Making room for the extension — allocate.rs:210-221. -/
def allocateSpace (E : Env) (L : Ledger) (asset : Key) (payer sys : Option Key)
    (length : UInt32) (exist : Bool) (offset : Nat) (data : Bytes) : Except Err Ledger :=
  let extended := allocateExtended length offset data
  if exist = false then createAccount E L asset payer sys extended
  else if (L asset).data.length < extended ∨
      (length.toNat ≠ data.length % two32 ∧ extended < (L asset).data.length) then
    resize E L extended asset payer sys
  else .ok L

/-- `save_extension_data` — allocate.rs:181-235. -/
def saveExtensionData (E : Env) (L : Ledger) (asset : Key) (payer sys : Option Key)
    (x : ExtInput) (exist : Bool) (offset : Nat) (data : Bytes) : Except Err Ledger := do
  let boundary := align8 (offset + extLen + x.length.toNat)
  let L1 ← allocateSpace E L asset payer sys x.length exist offset data
  let d ← writeHdr (L1 asset).data offset x.ty.toU32 x.length.toNat boundary
  let d ← copyData d (offset + extLen) data
  return L1.setData asset d

/-- `process_allocate` — processor/allocate.rs:30-134. The extension's `on_create` hook is
not run. -/
def processAllocate (E : Env) (L : Ledger) (asset : Key) (payer sys : Option Key)
    (x : ExtInput) : Except Err Ledger := do
  require (E.signer asset) .missingRequiredSignature
  let (exist, offset) ← allocateOffset E L asset x.ty
  match x.data with
  | some data => do
    require (data.length % two32 ≤ x.length.toNat) (.asset .extensionLengthInvalid)
    saveExtensionData E L asset payer sys x exist offset data
  | none => saveExtensionData E L asset payer sys x exist offset []

/-! ## Write -/

/-- Validation once all bytes are there — write.rs:136-159. -/
def writeValidate (d : Bytes) : Except Err Bytes := do
  match ← lastExtension d with
  | none => .error (.asset .extensionNotFound)
  | some (h, off) =>
    match ExtType.ofU32 h.ty with
    | none => .error .panic
    | some t =>
      if d.length < off + h.len then .error .panic
      else do
        let p ← mapLife (onCreate t (slice d off h.len) none)
        return splice d off p

/-- `process_write` — processor/write.rs:28-162. -/
def processWrite (E : Env) (L : Ledger) (asset payer sys : Key) (x : WriteInput) :
    Except Err Ledger := do
  require (sys = Key.system) .incorrectProgramId
  require (E.signer payer) .missingRequiredSignature
  require (E.signer asset) .missingRequiredSignature
  require ((L asset).owner = E.program) .illegalOwner
  let d := (L asset).data
  require (assetLen ≤ d.length) (.asset .invalidAccountLength)
  require (hDisc d = discUninit) (.asset .alreadyInitialized)
  match ← lastExtension d with
  | none => .error (.asset .extensionNotFound)
  | some (h, off) => do
    let expected := off + h.len
    require (d.length ≤ expected) (.asset .invalidAccountLength)
    let start := if x.overwrite then off else d.length
    let size :=
      if x.overwrite then off + x.bytes.length
      else if d.length + x.bytes.length = expected then h.bnd
      else d.length + x.bytes.length
    let L1 ← resize E L size asset (some payer) (some sys)
    let d1 ← memcpy (L1 asset).data start x.bytes
    if d1.length < expected then return L1.setData asset d1
    else do
      let d2 ← writeValidate d1
      return L1.setData asset d2

/-! ## Create -/

/-- Allocating every extension with `extensions.swap_remove(0)` — create.rs:131-147:
the first element is taken and replaced by the last one. -/
def swapRemoveOrder {α : Type} : Nat → List α → List α
  | 0, _ => []
  | _ + 1, [] => []
  | n + 1, x :: xs =>
    match xs.getLast? with
    | none => [x]
    | some y => x :: swapRemoveOrder n (y :: xs.dropLast)

/-- The order in which `Create` processes its extension inputs. -/
def createOrder (xs : List ExtInput) : List ExtInput := swapRemoveOrder xs.length xs

/-- The allocation loop of create.rs:131-147. -/
def allocateAll (E : Env) (asset : Key) (payer sys : Option Key) :
    List ExtInput → Ledger → Except Err Ledger
  | [], L => .ok L
  | x :: xs, L => do
    let L1 ← processAllocate E L asset payer sys x
    allocateAll E asset payer sys xs L1

/-- The validation loop of create.rs:151-200: returns the data after the `on_create` hooks
and the types found. `offset` is the absolute position of the current header. A `boundary`
before the end of the header wraps to a huge size, which is then rejected. -/
def createValidate (authority : Key) : Nat → Bytes → Nat → Except Err (Bytes × List ExtType)
  | 0, _, _ => .error .diverge
  | fuel + 1, d, offset =>
    if offset + extLen ≤ d.length then
      let h := hdrAt d offset
      match ExtType.ofU32 h.ty with
      | some .none => .ok (d, [])
      | none => .error (.asset .extensionDataInvalid)
      | some t =>
        if h.bnd < extLen + offset then .error (.asset .extensionDataInvalid)
        else if d.length < h.bnd then .error (.asset .extensionDataInvalid)
        else if h.bnd < offset + extLen + h.len then .error .panic
        else do
          let p ← mapLife (onCreate t (slice d (offset + extLen) h.len) (some authority))
          let (d', ts) ← createValidate authority fuel (splice d (offset + extLen) p) h.bnd
          return (d', t :: ts)
    else .ok (d, [])

/-- Writing the header fields — create.rs:204-211. State, group and delegate keep the bytes
of the uninitialised account. -/
def createHeader (d : Bytes) (owner authority : Key) (x : CreateInput) : Bytes :=
  setName (setAuthority (setOwner (setMutable (setByte (setByte d 0 discAsset) 2
    x.standard.toU8) x.isMutable) owner) authority) x.name

/-- Account creation or validation — create.rs:46-127. -/
def createPrepare (E : Env) (L : Ledger) (asset : Key) (payer sys : Option Key)
    (x : CreateInput) : Except Err Ledger :=
  let d := (L asset).data
  if d = [] then
    let space := assetLen +
      match x.extensions with
      | some xs => (xs.map fun e => align8 (e.length.toNat + extLen)).sum
      | none => 0
    createAccount E L asset payer sys space
  else do
    require ((L asset).owner = E.program) .illegalOwner
    require (assetLen ≤ d.length) (.asset .invalidAccountLength)
    require (hDisc d = discUninit) (.asset .alreadyInitialized)
    return L

/-- The proxy checks of create.rs:228-255. -/
def createProxyCheck (E : Env) (asset : Key) (d : Bytes) (standard : Standard) :
    Except Err Unit := do
  match ← assetGet .proxy d with
  | some p => do
    let px ← readProxy p
    if standard = .proxied then
      match E.pda px.seeds px.bump px.program with
      | none => .error .invalidSeeds
      | some k => require (k = asset) .invalidSeeds
    else .error (.asset .extensionDataInvalid)
  | none =>
    if standard = .proxied then .error (.asset .extensionDataInvalid) else return ()

/-- `process_create` — processor/create.rs:33-285. `split_at_mut` in create.rs:155 panics on data
shorter than the header. -/
def processCreate (E : Env) (L : Ledger) (asset authority owner : Key)
    (group groupAuthority payer sys : Option Key) (x : CreateInput) : Except Err Ledger := do
  require (E.signer asset) .missingRequiredSignature
  let L ← createPrepare E L asset payer sys x
  let L ← allocateAll E asset payer sys (createOrder (x.extensions.getD [])) L
  let d := (L asset).data
  require (assetLen ≤ d.length) .panic
  let (d, types) ← createValidate authority (d.length + 1) d assetLen
  let d := createHeader d owner authority x
  require ((x.standard = .managed) ↔ ExtType.manager ∈ types) (.asset .extensionDataInvalid)
  createProxyCheck E asset d x.standard
  let L := L.setData asset d
  match group with
  | some g => processGroup E L asset g (groupAuthority.getD authority)
  | none => return L

/-! ## Update -/

/-- The search of update.rs:154-173: final offset and, when found, length and boundary. -/
def updateFind (t : ExtType) (d : Bytes) : Nat → Nat → Except Err (Nat × Option (Nat × Nat))
  | 0, _ => .error .diverge
  | fuel + 1, offset =>
    if offset < d.length then
      if d.length < offset + extLen then .error .panic
      else
        let h := hdrAt d offset
        if ExtType.ofU32 h.ty = some t then .ok (offset, some (h.len, h.bnd))
        else if ExtType.ofU32 h.ty = some .none then .ok (offset, none)
        else updateFind t d fuel h.bnd
    else .ok (offset, none)

/-- `validate` — update.rs:388-414. -/
def updateValidate (t : ExtType) (input : Bytes) (current : Option Bytes) (authority : Key) :
    Except Err Bytes :=
  match current with
  | some old => mapLife (onUpdate t old input (some authority))
  | none =>
    match t with
    | .none | .manager | .proxy => .error (.asset .extensionDataInvalid)
    | _ => mapLife (onCreate t input (some authority))

/-- Conversion to `i32`. -/
def wrapI32 (x : Int) : Int := (x + 2147483648) % 4294967296 - 2147483648

/-- `u32::saturating_add_signed`. -/
def satAdd32 (b : Nat) (delta : Int) : Nat := min ((b : Int) + delta).toNat 4294967295

/-- The boundary fix loop of update.rs:347-354. The fuel is larger than the number of
iterations the compute budget of a transaction (1.4 million units) allows, and larger than
the number of headers that fit in the account. -/
def fixBoundaries (delta : Int) : Nat → Bytes → Nat → Except Err Bytes
  | 0, _, _ => .error .diverge
  | fuel + 1, d, cursor =>
    if cursor < d.length then
      if d.length < cursor + extLen then .error .panic
      else
        let b := satAdd32 (u32At d (cursor + 8)) delta
        fixBoundaries delta fuel (splice d (cursor + 8) (toLE 4 b)) b
    else .ok d

/-- Fuel of `fixBoundaries`. -/
def fixFuel (d : Bytes) : Nat := d.length + 4194304

/-- `if cond { resize(..)? }` -/
def resizeIf (E : Env) (cond : Bool) (L : Ledger) (size : Nat) (k : Key)
    (payer sys : Option Key) : Except Err Ledger :=
  if cond then resize E L size k payer sys else .ok L

/-- Moving the data and resizing the account — update.rs:281-338. -/
def updateMove (E : Env) (L : Ledger) (asset : Key) (payer sys : Option Key)
    (current : Option (Nat × Nat)) (extensionLength updated : Nat) (delta : Int) :
    Except Err Ledger :=
  match current with
  | none => resize E L updated asset payer sys
  | some (currentLength, boundary) =>
    if currentLength = extensionLength then .ok L
    else do
      match ← lastExtension (L asset).data with
      | none => .error (.asset .extensionNotFound)
      | some (h, _) => do
        let accountBoundary := h.bnd
        let resized := ((accountBoundary : Int) + delta).toNat
        let bytesToMove := accountBoundary - boundary
        let L1 ← resizeIf E (0 < delta) L resized asset payer sys
        let d ← memmove (L1 asset).data updated boundary bytesToMove
        let L2 := L1.setData asset d
        resizeIf E (delta < 0) L2 resized asset payer sys

/-- The second half of an extension update — update.rs:271-376: `payload` is the data to
copy (empty when there is none). -/
def updateFinish (E : Env) (L : Ledger) (asset : Key) (payer sys : Option Key) (t : ExtType)
    (offset : Nat) (current : Option (Nat × Nat)) (payload : Bytes) : Except Err Ledger := do
  let extensionLength := payload.length
  let updated := align8 (offset + extLen + extensionLength)
  let boundary := match current with
    | some (_, b) => b
    | none => offset
  let delta := wrapI32 ((updated : Int) - (boundary : Int))
  let L1 ← updateMove E L asset payer sys current extensionLength updated delta
  let d := (L1 asset).data
  let d ← writeHdr d offset t.toU32 extensionLength updated
  let d ← fixBoundaries delta (fixFuel d) d updated
  let d ← copyData d (offset + extLen) payload
  return L1.setData asset d

/-- `account_data[start..start + current_length]` of the extension being updated. -/
def currentPayload (d : Bytes) (offset : Nat) (current : Option (Nat × Nat)) :
    Except Err (Option Bytes) :=
  match current with
  | none => .ok none
  | some (len, _) =>
    if d.length < offset + extLen + len then .error .panic
    else .ok (some (slice d (offset + extLen) len))

/-- The validated data of an update from instruction data — update.rs:222-240. -/
def argsPayload (d : Bytes) (offset : Nat) (current : Option (Nat × Nat)) (authority : Key)
    (x : ExtInput) : Except Err Bytes :=
  match x.data with
  | some data => do
    let old ← currentPayload d offset current
    updateValidate x.ty data old authority
  | none => .ok []

/-- Extension update from instruction data — update.rs:146-147, 154-179, 221-264. -/
def updateArgs (E : Env) (L : Ledger) (asset authority : Key) (payer sys : Option Key)
    (x : ExtInput) : Except Err Ledger := do
  let d := (L asset).data
  let (offset, current) ← updateFind x.ty d (d.length + 1) assetLen
  let payload ← argsPayload d offset current authority x
  require (¬ payload.length < x.length.toNat) (.asset .extensionDataInvalid)
  require (¬ x.length.toNat < payload.length) (.asset .extensionLengthInvalid)
  updateFinish E L asset payer sys x.ty offset current payload

/-- Extension update from a buffer account — update.rs:121-145, 154-220, 360-368. The
validated slice starts at `Asset::LEN` although the data copied starts 16 bytes later; the
validation writes into the buffer. -/
def updateBuffer (E : Env) (L : Ledger) (asset authority buffer : Key) (payer sys : Option Key) :
    Except Err Ledger := do
  require ((L buffer).owner = E.program) .illegalOwner
  require (buffer ≠ asset) .accountBorrowFailed
  let b := (L buffer).data
  require (assetLen + extLen ≤ b.length) (.asset .invalidAccountLength)
  require (hDisc b = discUninit) (.asset .alreadyInitialized)
  match firstExtension b with
  | none => .error (.asset .extensionNotFound)
  | some (h, _) =>
    match ExtType.ofU32 h.ty with
    | none => .error .panic
    | some t => do
      let d := (L asset).data
      let (offset, current) ← updateFind t d (d.length + 1) assetLen
      require (h.bnd ≤ b.length) (.asset .extensionDataInvalid)
      require (assetLen + h.len ≤ b.length) .panic
      let old ← currentPayload d offset current
      let v ← updateValidate t (slice b assetLen h.len) old authority
      let b1 := splice b assetLen v
      let L1 := L.setData buffer b1
      require (h.len = 0 ∨ assetLen + extLen + h.len ≤ b1.length) .panic
      updateFinish E L1 asset payer sys t offset current (slice b1 (assetLen + extLen) h.len)

/-- Name and mutability — update.rs:88-94. -/
def updateHeader (d : Bytes) (x : UpdateInput) : Bytes :=
  let d := match x.name with
    | some n => setName d n
    | none => d
  match x.isMutable with
  | some m => setMutable d m
  | none => d

/-- `process_update` — processor/update.rs:41-380. -/
def processUpdate (E : Env) (L : Ledger) (asset authority : Key)
    (buffer payer sys : Option Key) (x : UpdateInput) : Except Err Ledger := do
  require (E.signer authority) .missingRequiredSignature
  require ((L asset).owner = E.program) .illegalOwner
  let d := (L asset).data
  require (Initialized d) (.asset .uninitialized)
  require (hAuthority d = authority) (.asset .invalidAuthority)
  require (hMutable d = true) (.asset .immutableAsset)
  let L := L.setData asset (updateHeader d x)
  match x.extension, buffer with
  | none, none => return L
  | some e, none => updateArgs E L asset authority payer sys e
  | none, some b => updateBuffer E L asset authority b payer sys
  | some _, some _ => .error .invalidInstructionData

/-! ## Remove and resize -/

/-- The search of remove.rs:71-85 (the last header is not examined when no byte follows
it). -/
def removeFind (t : ExtType) (d : Bytes) : Nat → Nat → Except Err (Option (Nat × Nat))
  | 0, _ => .error .diverge
  | fuel + 1, offset =>
    if offset + extLen < d.length then
      let h := hdrAt d offset
      if ExtType.ofU32 h.ty = some t then .ok (some (offset, h.bnd))
      else if ExtType.ofU32 h.ty = some .none then .ok none
      else removeFind t d fuel h.bnd
    else .ok none

/-- The type checks of remove.rs:91-110. -/
def removeAllowed (t : ExtType) (d : Bytes) : Except Err Unit :=
  match t with
  | .manager | .proxy => .error (.asset .extensionDataInvalid)
  | .grouping => do
    match ← assetGet .grouping d with
    | none => .error .panic
    | some p => do
      let g ← readGrouping p
      require (g.size = 0) (.asset .groupNotEmpty)
  | _ => .ok ()

/-- `process_remove` — processor/remove.rs:28-140. The boundaries of later extensions are
not adjusted. -/
def processRemove (E : Env) (L : Ledger) (asset authority recipient : Key) (t : ExtType) :
    Except Err Ledger := do
  require (E.signer authority) .missingRequiredSignature
  require ((L asset).owner = E.program) .illegalOwner
  let d := (L asset).data
  require (Initialized d) (.asset .uninitialized)
  require (hAuthority d = authority) (.asset .invalidAuthority)
  require (hMutable d = true) (.asset .immutableAsset)
  match ← removeFind t d (d.length + 1) assetLen with
  | none => .error (.asset .extensionNotFound)
  | some (offset, boundary) => do
    removeAllowed t d
    let d1 ← memmove d offset boundary (d.length - boundary)
    resize E (L.setData asset d1) (d.length - (boundary - offset)) asset (some recipient) none

/-- The requested size — resize.rs:64-71. -/
def resizeTarget (d : Bytes) : Strategy → Except Err Nat
  | .trim => do
    match ← lastExtension d with
    | some (h, _) => return h.bnd
    | none => return assetLen
  | .extend v => .ok (d.length + v.toNat)

/-- `process_resize` — processor/resize.rs:26-79. -/
def processResize (E : Env) (L : Ledger) (asset authority payer : Key) (sys : Option Key)
    (x : Strategy) : Except Err Ledger := do
  require (E.signer authority) .missingRequiredSignature
  require ((L asset).owner = E.program) .illegalOwner
  let d := (L asset).data
  require (Initialized d) (.asset .uninitialized)
  require (hAuthority d = authority) (.asset .invalidAuthority)
  require (hMutable d = true) (.asset .immutableAsset)
  let size ← resizeTarget d x
  resize E L size asset (some payer) sys

end Verif
