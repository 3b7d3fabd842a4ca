import Verif.Model.Program

/-!
# Instruction data

Serialisation of `Instruction` — programs/asset/program/src/instruction.rs:11-217. The code is
generated by `#[derive(BorshSerialize, BorshDeserialize)]`; it is modelled from the borsh 0.10
wire format: integers little endian, `bool` and `Option` with a strict 0/1 byte, enums with a
one-byte tag in declaration order, `Vec` and `String` with a four-byte length.
-/

namespace Verif

/-! ## Reading: the value and the rest of the input -/

/-- A reader, `BorshDeserialize::deserialize`. -/
abbrev Reader (α : Type) := Bytes → Option (α × Bytes)

/-- `u8`. -/
def readU8 : Reader UInt8
  | [] => none
  | b :: r => some (b, r)

/-- `n` bytes. -/
def readN (n : Nat) : Reader Bytes := fun bs =>
  if bs.length < n then none else some (bs.take n, bs.drop n)

/-- `u16`. -/
def readU16 : Reader UInt16 := fun bs => do
  let (b, bs) ← readN 2 bs
  return (UInt16.ofNat (leNat b), bs)

/-- `u32`. -/
def readU32 : Reader UInt32 := fun bs => do
  let (b, bs) ← readN 4 bs
  return (UInt32.ofNat (leNat b), bs)

/-- `bool`: only 0 and 1 are accepted. -/
def readBool : Reader Bool := fun bs => do
  let (b, bs) ← readU8 bs
  if b = 0 then return (false, bs) else if b = 1 then return (true, bs) else none

/-- `Option<T>`. -/
def readOpt {α : Type} (r : Reader α) : Reader (Option α) := fun bs => do
  let (b, bs) ← readU8 bs
  if b = 0 then return (none, bs)
  else if b = 1 then
    let (a, bs) ← r bs
    return (some a, bs)
  else none

/-- `n` values one after the other. -/
def readMany {α : Type} (r : Reader α) : Nat → Reader (List α)
  | 0 => fun bs => some ([], bs)
  | n + 1 => fun bs => do
    let (a, bs) ← r bs
    let (as, bs) ← readMany r n bs
    return (a :: as, bs)

/-- `Vec<T>`. -/
def readVec {α : Type} (r : Reader α) : Reader (List α) := fun bs => do
  let (n, bs) ← readU32 bs
  readMany r n.toNat bs

/-- `Vec<u8>`. -/
def readBytes : Reader Bytes := fun bs => do
  let (n, bs) ← readU32 bs
  readN n.toNat bs

/-- A continuation byte. -/
def isCont (b : UInt8) : Bool := 0x80 ≤ b && b ≤ 0xBF

/-- `core::str::from_utf8` succeeds (Unicode table 3-7, well-formed UTF-8). -/
def validUtf8 : Bytes → Bool
  | [] => true
  | a :: r =>
    if a ≤ 0x7F then validUtf8 r
    else match r with
      | [] => false
      | b :: r =>
        if 0xC2 ≤ a && a ≤ 0xDF && isCont b then validUtf8 r
        else match r with
          | [] => false
          | c :: r =>
            if ((a = 0xE0 && 0xA0 ≤ b && b ≤ 0xBF) || (0xE1 ≤ a && a ≤ 0xEC && isCont b) ||
                (a = 0xED && 0x80 ≤ b && b ≤ 0x9F) || (0xEE ≤ a && a ≤ 0xEF && isCont b)) &&
                isCont c then validUtf8 r
            else match r with
              | [] => false
              | d :: r =>
                if ((a = 0xF0 && 0x90 ≤ b && b ≤ 0xBF) || (0xF1 ≤ a && a ≤ 0xF3 && isCont b) ||
                    (a = 0xF4 && 0x80 ≤ b && b ≤ 0x8F)) && isCont c && isCont d then validUtf8 r
                else false

/-- `String`. -/
def readString : Reader Bytes := fun bs => do
  let (s, bs) ← readBytes bs
  if validUtf8 s then return (s, bs) else none

/-- Tag of an enum without data. -/
def readTag {α : Type} (ofTag : Nat → Option α) : Reader α := fun bs => do
  let (b, bs) ← readU8 bs
  let a ← ofTag b.toNat
  return (a, bs)

/-- Borsh tag of `Standard` — types/src/state/mod.rs:47-66. -/
def Standard.ofTag : Nat → Option Standard
  | 0 => some .nonFungible
  | 1 => some .managed
  | 2 => some .soulbound
  | 3 => some .proxied
  | _ => none

@[inherit_doc Standard.ofTag]
def Standard.tag : Standard → UInt8
  | .nonFungible => 0
  | .managed => 1
  | .soulbound => 2
  | .proxied => 3

/-- Borsh tag of `DelegateRole` — types/src/state/delegate.rs:88-96. -/
def Role.ofTag : Nat → Option Role
  | 0 => some .none
  | 1 => some .transfer
  | 2 => some .lock
  | 3 => some .burn
  | _ => Option.none

@[inherit_doc Role.ofTag]
def Role.tag : Role → UInt8
  | .none => 0
  | .transfer => 1
  | .lock => 2
  | .burn => 3

/-- Borsh tag of `ExtensionType` — types/src/extensions/mod.rs:201-214; declaration order, so
the same numbers as `TryFrom<u32>`. -/
def ExtType.ofTag : Nat → Option ExtType
  | 0 => some .none
  | 1 => some .attributes
  | 2 => some .blob
  | 3 => some .creators
  | 4 => some .links
  | 5 => some .metadata
  | 6 => some .grouping
  | 7 => some .royalties
  | 8 => some .manager
  | 9 => some .proxy
  | 10 => some .properties
  | 11 => some .bucket
  | _ => Option.none

@[inherit_doc ExtType.ofTag]
def ExtType.tag : ExtType → UInt8
  | .none => 0
  | .attributes => 1
  | .blob => 2
  | .creators => 3
  | .links => 4
  | .metadata => 5
  | .grouping => 6
  | .royalties => 7
  | .manager => 8
  | .proxy => 9
  | .properties => 10
  | .bucket => 11

/-- `ExtensionInput` — instruction.rs:158-170. -/
def readExtInput : Reader ExtInput := fun bs => do
  let (t, bs) ← readTag ExtType.ofTag bs
  let (n, bs) ← readU32 bs
  let (d, bs) ← readOpt readBytes bs
  return (⟨t, n, d⟩, bs)

/-- `MetadataInput` — instruction.rs:172-187. -/
def readCreateInput : Reader CreateInput := fun bs => do
  let (name, bs) ← readString bs
  let (std, bs) ← readTag Standard.ofTag bs
  let (m, bs) ← readBool bs
  let (xs, bs) ← readOpt (readVec readExtInput) bs
  return (⟨name, std, m, xs⟩, bs)

/-- `UpdateInput` — instruction.rs:189-203. -/
def readUpdateInput : Reader UpdateInput := fun bs => do
  let (name, bs) ← readOpt readString bs
  let (m, bs) ← readOpt readBool bs
  let (x, bs) ← readOpt readExtInput bs
  return (⟨name, m, x⟩, bs)

/-- `DataInput` — instruction.rs:147-156. -/
def readWriteInput : Reader WriteInput := fun bs => do
  let (o, bs) ← readBool bs
  let (b, bs) ← readBytes bs
  return (⟨o, b⟩, bs)

/-- `DelegateInput` — instruction.rs:136-145. -/
def readDelegateInput : Reader DelegateInput := fun bs => do
  let (t, bs) ← readU8 bs
  match t.toNat with
  | 0 => return (.all, bs)
  | 1 =>
    let (rs, bs) ← readVec (readTag Role.ofTag) bs
    return (.some rs, bs)
  | _ => none

/-- `Strategy` — instruction.rs:205-217. -/
def readStrategy : Reader Strategy := fun bs => do
  let (t, bs) ← readU8 bs
  match t.toNat with
  | 0 => return (.trim, bs)
  | 1 =>
    let (v, bs) ← readU16 bs
    return (.extend v, bs)
  | _ => none

/-- Map the value of a reader. -/
def Reader.map {α β : Type} (f : α → β) (r : Reader α) : Reader β := fun bs => do
  let (a, bs) ← r bs
  return (f a, bs)

/-- `Instruction` — instruction.rs:13-126. `AllocateInput` is a struct with one field. -/
def readInstr : Reader Instr := fun bs => do
  let (t, bs) ← readU8 bs
  match t.toNat with
  | 0 => some (.close, bs)
  | 1 => some (.burn, bs)
  | 2 => readCreateInput.map .create bs
  | 3 => readDelegateInput.map .approve bs
  | 4 => readExtInput.map .allocate bs
  | 5 => some (.lock, bs)
  | 6 => readDelegateInput.map .revoke bs
  | 7 => some (.transfer, bs)
  | 8 => some (.unlock, bs)
  | 9 => some (.unverify, bs)
  | 10 => readUpdateInput.map .update bs
  | 11 => some (.verify, bs)
  | 12 => readWriteInput.map .write bs
  | 13 => some (.group, bs)
  | 14 => some (.ungroup, bs)
  | 15 => some (.handover, bs)
  | 16 => (Reader.map .remove (readTag ExtType.ofTag)) bs
  | 17 => readStrategy.map .resize bs
  | _ => none

/-- `Instruction::try_from_slice`: nothing may be left over. -/
def decode (bs : Bytes) : Option Instr :=
  match readInstr bs with
  | some (i, []) => some i
  | _ => none

/-- `process_instruction` on instruction data — processor/mod.rs:44-142, run by the runtime. -/
def executeBytes (E : Env) (L : Ledger) (accts : List Key) (data : Bytes) : Except Err Ledger :=
  match decode data with
  | some i => execute E L accts i
  | none => .error .invalidInstructionData

/-! ## Writing -/

/-- `Vec<u8>` and `String`. -/
def encBytes (b : Bytes) : Bytes := toLE 4 b.length ++ b

/-- `bool`. -/
def encBool (b : Bool) : Bytes := [if b then 1 else 0]

/-- `Option<T>`. -/
def encOpt {α : Type} (f : α → Bytes) : Option α → Bytes
  | none => [0]
  | some a => 1 :: f a

/-- `Vec<T>`. -/
def encVec {α : Type} (f : α → Bytes) (l : List α) : Bytes := toLE 4 l.length ++ l.flatMap f

/-- `ExtensionInput`. -/
def encExtInput (x : ExtInput) : Bytes :=
  x.ty.tag :: toLE 4 x.length.toNat ++ encOpt encBytes x.data

/-- `MetadataInput`. -/
def encCreateInput (x : CreateInput) : Bytes :=
  encBytes x.name ++ [x.standard.tag] ++ encBool x.isMutable ++
    encOpt (encVec encExtInput) x.extensions

/-- `UpdateInput`. -/
def encUpdateInput (x : UpdateInput) : Bytes :=
  encOpt encBytes x.name ++ encOpt encBool x.isMutable ++ encOpt encExtInput x.extension

/-- `DataInput`. -/
def encWriteInput (x : WriteInput) : Bytes := encBool x.overwrite ++ encBytes x.bytes

/-- `DelegateInput`. -/
def encDelegateInput : DelegateInput → Bytes
  | .all => [0]
  | .some rs => 1 :: encVec (fun r => [Role.tag r]) rs

/-- `Strategy`. -/
def encStrategy : Strategy → Bytes
  | .trim => [0]
  | .extend v => 1 :: toLE 2 v.toNat

/-- `Instruction`. -/
def encode : Instr → Bytes
  | .close => [0]
  | .burn => [1]
  | .create x => 2 :: encCreateInput x
  | .approve x => 3 :: encDelegateInput x
  | .allocate x => 4 :: encExtInput x
  | .lock => [5]
  | .revoke x => 6 :: encDelegateInput x
  | .transfer => [7]
  | .unlock => [8]
  | .unverify => [9]
  | .update x => 10 :: encUpdateInput x
  | .verify => [11]
  | .write x => 12 :: encWriteInput x
  | .group => [13]
  | .ungroup => [14]
  | .handover => [15]
  | .remove t => [16, t.tag]
  | .resize s => 17 :: encStrategy s

end Verif
