import Verif.Model.Program

/-!
# Memory behind the accounts

The rest of the model ends with `Err.oob` when the program moves or copies bytes past the data of an
account. Here this is carried out, for the instructions Remove, Update and Write (the only ones that
use lengths and offsets from the account in such a way), on the memory that the loader hands to the
program: all accounts of the instruction, one after the other. After the instruction the loader reads
the accounts back from it.

The layout is that of the loader (not repository code, see the trusted base in DESIGN.md): one region
of memory without gaps.
-/

namespace Verif

/-- What the loader writes besides the accounts of the ledger: executable flags, rent epochs, and what
follows the accounts (instruction data and program id). -/
structure Loader where
  executable : Key → Bool
  epoch : Key → Nat
  trailer : Bytes

/-- The accounts during an instruction: what the rest of the model has, and the bytes behind the data of
each account, into which it may grow. -/
structure Ram where
  led : Ledger
  behind : Key → Bytes

/-- At the start of an instruction there are zeros behind the accounts: 10 KiB, and what aligns them. -/
def Ram.start (L : Ledger) : Ram :=
  ⟨L, fun k => zeros (maxIncrease + (align8 (L k).data.length - (L k).data.length))⟩

/-- Bytes in memory for the data of an account. -/
def Ram.cap (R : Ram) (k : Key) : Nat := (R.led k).data.length + (R.behind k).length

/-- All of them. -/
def Ram.all (R : Ram) (k : Key) : Bytes := (R.led k).data ++ R.behind k

/-- The bytes `b` for account `k`, the first `n` of which are its data. -/
def Ram.split (R : Ram) (k : Key) (b : Bytes) (n : Nat) : Ram :=
  ⟨R.led.setData k (b.take n), fun x => if x = k then b.drop n else R.behind x⟩

/-- Other accounts, with the same bytes behind them. -/
def Ram.set (R : Ram) (L : Ledger) : Ram := ⟨L, R.behind⟩

/-- A flag as a byte. -/
def flag (b : Bool) : UInt8 := if b then 1 else 0

/-- What precedes the data of an account: marker of a first occurrence, signer, writable, executable,
4 unused bytes, address, owner, lamports, length of the data; 88 bytes. -/
def slotHead (M : Loader) (E : Env) (L : Ledger) (k : Key) : Bytes :=
  [0xff, flag (E.signer k), flag (E.writable k), flag (M.executable k)] ++ zeros 4 ++ k.1 ++
    (L k).owner.1 ++ toLE 8 (L k).lamports ++ toLE 8 (L k).data.length

/-- What follows it: room to grow, rent epoch. -/
def slotTail (M : Loader) (R : Ram) (k : Key) : Bytes := R.behind k ++ toLE 8 (M.epoch k)

/-- An account in memory. -/
def slot (M : Loader) (E : Env) (R : Ram) (k : Key) : Bytes :=
  slotHead M E R.led k ++ (R.led k).data ++ slotTail M R k

/-- The accounts, when those of `seen` come before them; a repeated account is only referred to. -/
def slots (M : Loader) (E : Env) (R : Ram) : List Key → List Key → Bytes
  | _, [] => []
  | seen, k :: ks =>
    (if k ∈ seen then UInt8.ofNat (seen.findIdx (· = k)) :: zeros 7 else slot M E R k) ++
      slots M E R (seen ++ [k]) ks

/-- The memory of an instruction. -/
def image (M : Loader) (E : Env) (R : Ram) (accts : List Key) : Bytes :=
  toLE 8 accts.length ++ slots M E R [] accts ++ M.trailer

/-- Where account `x` is found in memory. -/
def place (M : Loader) (E : Env) (R : Ram) (accts : List Key) (x : Key) : Nat :=
  8 + (slots M E R [] (accts.takeWhile (fun y => decide (y ≠ x)))).length

/-- The account read from the memory at offset `o`. -/
def readAccount (mem : Bytes) (o : Nat) : Account :=
  ⟨u64At mem (o + 72), slice mem (o + 88) (u64At mem (o + 80)), keyAt mem (o + 40)⟩

/-- The bytes behind the data of the account at offset `o`, which has `cap` bytes in all. -/
def readBehind (mem : Bytes) (o cap : Nat) : Bytes :=
  slice mem (o + 88 + u64At mem (o + 80)) (cap - u64At mem (o + 80))

/-- The accounts read back. An account that claims more bytes than it has is refused by the loader
(in the end; here at once, as nothing makes it good). -/
def readBack (M : Loader) (E : Env) (R : Ram) (accts : List Key) (mem : Bytes) : Except Err Ram :=
  if ∀ x ∈ accts, u64At mem (place M E R accts x + 80) ≤ R.cap x then
    .ok ⟨fun x => if x ∈ accts then readAccount mem (place M E R accts x) else R.led x,
      fun x => if x ∈ accts then readBehind mem (place M E R accts x) (R.cap x) else R.behind x⟩
  else .error .runtime

/-- Writing through a pointer into the data of account `k`; it fails only when it leaves the memory of
the instruction. -/
def writeRaw (M : Loader) (E : Env) (R : Ram) (accts : List Key) (k : Key) (dst : Nat) (bs : Bytes) :
    Except Err Ram :=
  let mem := image M E R accts
  let o := place M E R accts k + 88 + dst
  if mem.length < o + bs.length then .error .oob
  else readBack M E R accts (splice mem o bs)

/-- `sol_memmove` on pointers into the data of account `k`. -/
def memmoveRaw (M : Loader) (E : Env) (R : Ram) (accts : List Key) (k : Key) (dst src n : Nat) :
    Except Err Ram :=
  let mem := image M E R accts
  let o := place M E R accts k + 88 + src
  if n = 0 then .ok R
  else if mem.length < o + n then .error .oob
  else writeRaw M E R accts k dst (slice mem o n)

/-- `sol_memcpy(&mut data[off..], bytes, bytes.len())` where `data` is that of account `k`, as `memcpy`
except for the second check. -/
def memcpyRaw (M : Loader) (E : Env) (R : Ram) (accts : List Key) (k : Key) (off : Nat) (bs : Bytes) :
    Except Err Ram :=
  if (R.led k).data.length < off then .error .panic
  else writeRaw M E R accts k off bs

/-- `account.realloc(size, false)`, as `realloc` except that an account that grows gets the bytes that
are there. -/
def reallocRaw (E : Env) (R : Ram) (k : Key) (size : Nat) : Except Err Ram :=
  if size = (R.led k).data.length then .ok R
  else if E.origLen k + maxIncrease < size then .error .invalidRealloc
  else .ok (R.split k (R.all k) size)

/-- `resize` — programs/asset/program/src/processor/mod.rs:208-280. -/
def resizeRaw (E : Env) (R : Ram) (size : Nat) (k : Key) (payer sys : Option Key) : Except Err Ram := do
  let L ← resizeLamports E R.led size k payer sys
  reallocRaw E (R.set L) k size

/-- `if cond { resize(..)? }` -/
def resizeIfRaw (E : Env) (cond : Bool) (R : Ram) (size : Nat) (k : Key) (payer sys : Option Key) :
    Except Err Ram :=
  if cond then resizeRaw E R size k payer sys else .ok R

/-! ## The instructions -/

/-- `process_remove` — programs/asset/program/src/processor/remove.rs:28-140, like `processRemove`
except for the move. -/
def processRemoveRaw (M : Loader) (E : Env) (R : Ram) (accts : List Key)
    (asset authority recipient : Key) (t : ExtType) : Except Err Ram := do
  require (E.signer authority) .missingRequiredSignature
  require ((R.led asset).owner = E.program) .illegalOwner
  let d := (R.led asset).data
  require (Initialized d) (.asset .uninitialized)
  require (hAuthority d = authority) (.asset .invalidAuthority)
  require (hMutable d = true) (.asset .immutableAsset)
  match ← removeFind t d (d.length + 1) assetLen with
  | none => .error (.asset .extensionNotFound)
  | some (offset, boundary) => do
    removeAllowed t d
    let R1 ← memmoveRaw M E R accts asset offset boundary (d.length - boundary)
    resizeRaw E R1 (d.length - (boundary - offset)) asset (some recipient) none

/-- `updateMove` with the move on memory — programs/asset/program/src/processor/update.rs:281-338. -/
def updateMoveRaw (M : Loader) (E : Env) (R : Ram) (accts : List Key) (asset : Key)
    (payer sys : Option Key) (current : Option (Nat × Nat)) (extensionLength updated : Nat)
    (delta : Int) : Except Err Ram :=
  match current with
  | none => resizeRaw E R updated asset payer sys
  | some (currentLength, boundary) =>
    if currentLength = extensionLength then .ok R
    else do
      match ← lastExtension (R.led asset).data with
      | none => .error (.asset .extensionNotFound)
      | some (h, _) => do
        let accountBoundary := h.bnd
        let resized := ((accountBoundary : Int) + delta).toNat
        let bytesToMove := accountBoundary - boundary
        let R1 ← resizeIfRaw E (0 < delta) R resized asset payer sys
        let R2 ← memmoveRaw M E R1 accts asset updated boundary bytesToMove
        resizeIfRaw E (delta < 0) R2 resized asset payer sys

/-- The data to copy: that of the instruction, or, from a buffer, what is in the buffer at that time —
update.rs:357-376. The slice of the buffer panics when it is too short. -/
def updateSource (R : Ram) (buffer : Option Key) (payload : Bytes) : Except Err Bytes :=
  match buffer with
  | none => .ok payload
  | some b =>
    if (R.led b).data.length < assetLen + extLen + payload.length then .error .panic
    else .ok (slice (R.led b).data (assetLen + extLen) payload.length)

/-- The system call refuses to copy when source and destination overlap: the destination starts at
offset `off` of the data of `asset`, the source at that of the extension of `buffer`. (Data of the
instruction is elsewhere.) -/
def Overlaps (M : Loader) (E : Env) (R : Ram) (accts : List Key) (asset : Key) (buffer : Option Key)
    (off n : Nat) : Prop :=
  match buffer with
  | none => False
  | some b =>
    place M E R accts asset + 88 + off < place M E R accts b + 88 + (assetLen + extLen) + n ∧
      place M E R accts b + 88 + (assetLen + extLen) < place M E R accts asset + 88 + off + n

instance (M : Loader) (E : Env) (R : Ram) (accts : List Key) (asset : Key) (buffer : Option Key)
    (off n : Nat) : Decidable (Overlaps M E R accts asset buffer off n) := by
  unfold Overlaps; split <;> infer_instance

/-- `updateFinish` on memory — update.rs:271-376. -/
def updateFinishRaw (M : Loader) (E : Env) (R : Ram) (accts : List Key) (asset : Key)
    (payer sys buffer : Option Key) (t : ExtType) (offset : Nat) (current : Option (Nat × Nat))
    (payload : Bytes) : Except Err Ram := do
  let extensionLength := payload.length
  let updated := align8 (offset + extLen + extensionLength)
  let boundary := match current with
    | some (_, b) => b
    | none => offset
  let delta := wrapI32 ((updated : Int) - (boundary : Int))
  let R1 ← updateMoveRaw M E R accts asset payer sys current extensionLength updated delta
  let d := (R1.led asset).data
  let d ← writeHdr d offset t.toU32 extensionLength updated
  let d ← fixBoundaries delta (fixFuel d) d updated
  let R2 := R1.set (R1.led.setData asset d)
  if payload = [] then return R2
  else do
    let bs ← updateSource R2 buffer payload
    require (¬ Overlaps M E R2 accts asset buffer (offset + extLen) bs.length) .oob
    memcpyRaw M E R2 accts asset (offset + extLen) bs

/-- `updateArgs` on memory — update.rs:146-147, 154-179, 221-264. -/
def updateArgsRaw (M : Loader) (E : Env) (R : Ram) (accts : List Key) (asset authority : Key)
    (payer sys : Option Key) (x : ExtInput) : Except Err Ram := do
  let d := (R.led asset).data
  let (offset, current) ← updateFind x.ty d (d.length + 1) assetLen
  let payload ← argsPayload d offset current authority x
  require (¬ payload.length < x.length.toNat) (.asset .extensionDataInvalid)
  require (¬ x.length.toNat < payload.length) (.asset .extensionLengthInvalid)
  updateFinishRaw M E R accts asset payer sys none x.ty offset current payload

/-- `updateBuffer` on memory — update.rs:121-145, 154-220, 360-368. -/
def updateBufferRaw (M : Loader) (E : Env) (R : Ram) (accts : List Key) (asset authority buffer : Key)
    (payer sys : Option Key) : Except Err Ram := do
  require ((R.led buffer).owner = E.program) .illegalOwner
  require (buffer ≠ asset) .accountBorrowFailed
  let b := (R.led buffer).data
  require (assetLen + extLen ≤ b.length) (.asset .invalidAccountLength)
  require (hDisc b = discUninit) (.asset .alreadyInitialized)
  match firstExtension b with
  | none => .error (.asset .extensionNotFound)
  | some (h, _) =>
    match ExtType.ofU32 h.ty with
    | none => .error .panic
    | some t => do
      let d := (R.led asset).data
      let (offset, current) ← updateFind t d (d.length + 1) assetLen
      require (h.bnd ≤ b.length) (.asset .extensionDataInvalid)
      require (assetLen + h.len ≤ b.length) .panic
      let old ← currentPayload d offset current
      let v ← updateValidate t (slice b assetLen h.len) old authority
      let b1 := splice b assetLen v
      let R1 := R.set (R.led.setData buffer b1)
      require (h.len = 0 ∨ assetLen + extLen + h.len ≤ b1.length) .panic
      updateFinishRaw M E R1 accts asset payer sys (some buffer) t offset current
        (slice b1 (assetLen + extLen) h.len)

/-- `process_update` on memory — update.rs:41-380. -/
def processUpdateRaw (M : Loader) (E : Env) (R : Ram) (accts : List Key) (asset authority : Key)
    (buffer payer sys : Option Key) (x : UpdateInput) : Except Err Ram := do
  require (E.signer authority) .missingRequiredSignature
  require ((R.led asset).owner = E.program) .illegalOwner
  let d := (R.led asset).data
  require (Initialized d) (.asset .uninitialized)
  require (hAuthority d = authority) (.asset .invalidAuthority)
  require (hMutable d = true) (.asset .immutableAsset)
  let R := R.set (R.led.setData asset (updateHeader d x))
  match x.extension, buffer with
  | none, none => return R
  | some e, none => updateArgsRaw M E R accts asset authority payer sys e
  | none, some b => updateBufferRaw M E R accts asset authority b payer sys
  | some _, some _ => .error .invalidInstructionData

/-- `process_write` on memory — programs/asset/program/src/processor/write.rs:28-165. -/
def processWriteRaw (M : Loader) (E : Env) (R : Ram) (accts : List Key) (asset payer sys : Key)
    (x : WriteInput) : Except Err Ram := do
  require (sys = Key.system) .incorrectProgramId
  require (E.signer payer) .missingRequiredSignature
  require (E.signer asset) .missingRequiredSignature
  require ((R.led asset).owner = E.program) .illegalOwner
  let d := (R.led asset).data
  require (assetLen ≤ d.length) (.asset .invalidAccountLength)
  require (hDisc d = discUninit) (.asset .alreadyInitialized)
  match ← lastExtension d with
  | none => .error (.asset .extensionNotFound)
  | some (h, off) => do
    let expected := off + h.len
    require (d.length ≤ expected) (.asset .invalidAccountLength)
    let start := if x.overwrite then off else d.length
    let size :=
      if x.overwrite then off + x.bytes.length
      else if d.length + x.bytes.length = expected then h.bnd
      else d.length + x.bytes.length
    let R1 ← resizeRaw E R size asset (some payer) (some sys)
    let R2 ← memcpyRaw M E R1 accts asset start x.bytes
    let d1 := (R2.led asset).data
    if d1.length < expected then return R2
    else do
      let d2 ← writeValidate d1
      return R2.set (R2.led.setData asset d2)

/-- `dispatch` with the instructions above — programs/asset/program/src/processor/mod.rs:62-187. -/
def dispatchRaw (M : Loader) (E : Env) (L : Ledger) (all : List Key) (i : Instr) (accts : List Key) :
    Except Err Ledger :=
  match i, accts with
  | .remove t, asset :: authority :: _group :: recipient :: _ =>
    (processRemoveRaw M E (.start L) all asset authority recipient t).map Ram.led
  | .update x, asset :: authority :: buffer :: _group :: payer :: sys :: _ =>
    (processUpdateRaw M E (.start L) all asset authority (optAcc E buffer) (optAcc E payer) (optAcc E sys) x).map
      Ram.led
  | .write x, asset :: payer :: sys :: _ =>
    (processWriteRaw M E (.start L) all asset payer sys x).map Ram.led
  | i, accts => dispatch E L i accts

/-- `execute` with `dispatchRaw`. -/
def executeRaw (M : Loader) (E : Env) (L : Ledger) (accts : List Key) (i : Instr) :
    Except Err Ledger := do
  proxiedCheck E L (accts.take 7)
  let locked ← lockedScan E L (accts.take 7)
  require (¬ (locked = true ∧ i.blockedByLock = true)) (.asset .lockedAsset)
  let L' ← dispatchRaw M E L accts i (accts.take 7)
  if accts.all (fun k => changeAllowed E k (L k) (L' k)) then return L' else .error .runtime

end Verif
