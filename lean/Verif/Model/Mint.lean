import Verif.Model.Calls

/-!
# Minting with the Rust client

clients/rust/asset/src/mint.rs: the list of instructions that creates an asset with its
extensions.
-/

namespace Verif

/-- `slice::chunks(n + 1)`: pieces of `n + 1` bytes, the last one may be shorter. The fuel is the
number of bytes. -/
def chunksOf (n : Nat) : Nat → Bytes → List Bytes
  | 0, _ => []
  | fuel + 1, b => if b.isEmpty then [] else b.take (n + 1) :: chunksOf n fuel (b.drop (n + 1))

/-- `MAX_ALLOCATE_DATA_SIZE` — mint.rs:306-313. -/
def maxAllocateData : Nat := 1232 - 312

/-- `MAX_WRITE_DATA_SIZE` — mint.rs:306-314. -/
def maxWriteData : Nat := 1232 - (312 - 5)

/-- `MintIxArgs` — mint.rs:24-49. -/
structure MintArgs where
  asset : Key
  owner : Key
  payer : Option Key
  name : Bytes
  standard : Standard
  isMutable : Bool
  exts : List (ExtType × Bytes)

/-- The pieces of the data after the first: `extension.data[MAX_ALLOCATE_DATA_SIZE..].chunks(..)`
— mint.rs:347-350. -/
def laterChunks (data : Bytes) : List Bytes :=
  if maxAllocateData < data.length
  then chunksOf (maxWriteData - 1) data.length (data.drop maxAllocateData)
  else []

/-- The instructions for one extension — mint.rs:324-366. -/
def mintExt (asset payer : Key) (e : ExtType × Bytes) : List Call :=
  .allocate asset (some payer) (some Key.system)
      ⟨e.1, UInt32.ofNat e.2.length, some (e.2.take (min e.2.length maxAllocateData))⟩ ::
    (laterChunks e.2).map fun c => .write asset payer Key.system ⟨false, c⟩

/-- The instructions of `mint`, before serialisation — mint.rs:318-390. -/
def mintCalls (x : MintArgs) : List Call :=
  let payer := x.payer.getD x.owner
  x.exts.flatMap (mintExt x.asset payer) ++
    [.create x.asset (x.owner, false) x.owner none none (some payer) (some Key.system)
      ⟨x.name, x.standard, x.isMutable, none⟩]

/-- `mint` — mint.rs:318-390. -/
def mint (program : Key) (x : MintArgs) : List ClientIx := (mintCalls x).map (·.build program)

end Verif
