/-!
# Byte lists

Byte-level vocabulary shared by the whole model: little-endian integers and the
slice reads/writes that the Rust code performs on account data.
-/

namespace Verif

/-- Account data, extension payloads and instruction data (`&[u8]` / `Vec<u8>`). -/
abbrev Bytes := List UInt8

/-- `u32::from_le_bytes` / `u64::from_le_bytes` (and the in-place `bytemuck` casts of
little-endian integers): value of a little-endian byte string of any width. -/
def leNat : Bytes → Nat
  | [] => 0
  | b :: bs => b.toNat + 256 * leNat bs

/-- `to_le_bytes` of an integer of `n` bytes; higher bytes are dropped, as an `as uN`
cast does. -/
def toLE : Nat → Nat → Bytes
  | 0, _ => []
  | n + 1, v => UInt8.ofNat v :: toLE n (v / 256)

/-- `&d[off..off + n]` when in range (the model checks the range before using it). -/
def slice (d : Bytes) (off n : Nat) : Bytes := (d.drop off).take n

/-- Overwrite `d[off..off + bs.len()]` with `bs` (`copy_from_slice`, `sol_memcpy`,
stores through a `bytemuck` reference), range checked by the caller. -/
def splice (d : Bytes) (off : Nat) (bs : Bytes) : Bytes :=
  d.take off ++ bs ++ d.drop (off + bs.length)

/-- `vec![0u8; n]`. -/
def zeros (n : Nat) : Bytes := List.replicate n 0

/-- `u32` stored at offset `off`. -/
def u32At (d : Bytes) (off : Nat) : Nat := leNat (slice d off 4)

/-- `u64` stored at offset `off`. -/
def u64At (d : Bytes) (off : Nat) : Nat := leNat (slice d off 8)

/-- Byte at an index that has been range checked. -/
def byteAt (d : Bytes) (i : Nat) : UInt8 := d.getD i 0

/-- `realloc(size, false)` on the data: truncate, or grow with zero bytes (the runtime
hands out zeroed memory for growth). -/
def reallocBytes (d : Bytes) (size : Nat) : Bytes := d.take size ++ zeros (size - d.length)

end Verif
