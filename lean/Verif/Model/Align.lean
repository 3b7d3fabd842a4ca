import Verif.Model.Program
import Verif.Model.Properties

/-!
# Where typed views of bytes lie

`bytemuck::from_bytes` and `podded`'s `load` panic when the bytes do not begin at a multiple of the
alignment of the type. The other files leave this out; here every view with an alignment over 1 is
listed with its distance from the start of the data of an extension.

Where the data is: the data of an account begins at a multiple of 8 in the input of a program. The data
of an extension in the arguments of an instruction is a `Vec<u8>`, made by `borsh`, and lies where the
allocator puts it. The allocator of Solana programs hands out the 32 KiB from
0x300000000 from the top down, without gaps for types of alignment 1, and never takes anything back.
The source has a remark on this in all `build` functions: "manual byte wrangling because bytemuck
doesn't work with newly allocated Vec in BPF" (and.rs:74-75).
-/

namespace Verif

/-- A typed view: its distance from the start of the data, and the alignment of the type. -/
abbrev View := Nat × Nat

mutual
/-- The views `Constraint::from_bytes` takes of `b`, which begins `o` bytes after the start of the data:
`Operator` is two `u32`s (constraints/mod.rs:112-118, 233-257), `Account` is a `u64` (mod.rs:54-61,
owned_by.rs:22-29, pubkey_match.rs:22-29), `Pubkey` is 32 bytes. -/
def viewsC : Nat → Nat → Bytes → List View
  | 0, _, _ => []
  | fuel + 1, o, b =>
    let ty := u32At b 0
    let body := (b.drop 8).take (u32At b 4)
    (o, 4) ::
      (if ty = 0 ∨ ty = 2 then viewsL fuel (o + 8) body
      else if ty = 1 then viewsC fuel (o + 8) body
      else if ty = 3 ∨ ty = 4 then [(o + 8, 8)]
      else [])

/-- The loops of `And::from_bytes` (and.rs:15-28) and `Or::from_bytes` (or.rs:15-28). -/
def viewsL : Nat → Nat → Bytes → List View
  | 0, _, _ => []
  | fuel + 1, o, b =>
    if b.isEmpty then []
    else viewsC fuel o b ++ viewsL fuel (o + (8 + u32At b 4)) (b.drop (8 + u32At b 4))
end

/-- The views `from_bytes` and `from_bytes_mut` take of the data of an extension. `Grouping` has two
`u64`s (grouping.rs:39-55, 80-98), `Royalties` one and a constraint (royalties.rs:16-25, 41-50). The
other types only have bytes, keys and arrays of them. The number of a property is taken as eight bytes
(properties.rs:244-249); `numberViews` is about its use. -/
def views (t : ExtType) (p : Bytes) : List View :=
  match t with
  | .grouping => [(0, 8), (8, 8)]
  | .royalties => (0, 8) :: viewsC (p.length + 2) 8 (p.drop 8)
  | _ => []

/-- All views of data at the address `a` are aligned. -/
def alignedAt (a : Nat) (vs : List View) : Bool := vs.all fun v => (a + v.1) % v.2 = 0

/-- The end of the heap: `HEAP_START_ADDRESS + HEAP_LENGTH` of `solana_program`. -/
def heapTop : Nat := 0x300000000 + 32768

/-- A `Vec<u8>` with `n` bytes taken from the heap, of which everything from `pos` on is in use: its
address, and what is in use then (`BumpAllocator::alloc` with alignment 1). A `Vec` without
bytes is not allocated and has the address 1. -/
def vecAlloc (pos n : Nat) : Nat × Nat := if n = 0 then (1, pos) else (pos - n, pos - n)

/-- The address of the data of the extension in the arguments of Update. `Instruction::try_from_slice`
(entrypoint.rs) first reads the name, then the data — instruction.rs:189-203. -/
def inlineAddr (x : UpdateInput) (data : Bytes) : Nat :=
  (vecAlloc (vecAlloc heapTop (x.name.getD []).length).2 data.length).1

/-- The views taken of the data in the arguments of Update are aligned — update.rs:221-235 with
extensions/mod.rs:297-327. -/
def alignedInput (x : UpdateInput) : Bool :=
  match x.extension with
  | some e =>
    match e.data with
    | some p => alignedAt (inlineAddr x p) (views e.ty p)
    | none => true
  | none => true

/-- The views an instruction takes of its arguments are aligned. -/
def Instr.aligned : Instr → Bool
  | .update x => alignedInput x
  | _ => true

/-- An instruction with the panics of views of its arguments. If the instruction succeeds without them,
Update has taken its views. -/
def executeAligned (E : Env) (L : Ledger) (accts : List Key) (i : Instr) : Except Err Ledger := do
  let L' ← execute E L accts i
  require (i.aligned = true) .panic
  return L'

/-- Reading the number of a property with `Deref` makes a `&u64` of the pointer to its eight bytes, with
no check at all — properties.rs:251-263. The position is that of the bytes in the data of the
account. -/
def numberViews (slots : List (Bytes × Slot)) : List View :=
  slots.filterMap fun s => match s.2.value with
    | .number _ => some (s.2.pos, 8)
    | _ => none

end Verif
