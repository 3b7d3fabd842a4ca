import Verif.Spec.Asset
import Verif.Spec.Layout
import Verif.Model.Program

/-!
# Assets as records

An asset as a record of its fields and its list of extensions, with no reference to bytes or
offsets, and what it means for an account to store such an asset.
-/

namespace Verif.Spec

open Verif

/-- An asset. -/
structure Asset where
  state : UInt8
  standard : UInt8
  mutableByte : UInt8
  owner : Key
  group : Key
  authority : Key
  delegate : Key
  roles : UInt8
  name : Bytes
  exts : List Extn
  deriving DecidableEq, Repr

/-- The record with the given header fields and extensions. -/
def Asset.of (v : AssetView) (es : List Extn) : Asset :=
  ⟨v.state, v.standard, v.mutableByte, v.owner, v.group, v.authority, v.delegate, v.roles, v.name,
    es⟩

/-- Account `k` is an initialised asset of the program, of at most 10 MiB, that stores the asset
`A` (its extension area is packed, so that `A` is determined by the account). -/
def Stores (program : Key) (L : Ledger) (k : Key) (A : Asset) : Prop :=
  IsAsset program L k ∧ (L k).data.length ≤ 10485760 ∧ A = Asset.of (assetAt L k) A.exts ∧
    CleanExts (L k).data A.exts

/-- A name as it is stored: cut or padded with zeros to 35 bytes. -/
def storedName (n : Bytes) : Bytes := (n ++ List.replicate 35 0).take 35

/-- `q` is `p` up to what the program itself maintains in an extension of type `t`: the
`verified` byte of the creators (byte 32 of each record of 34) and the size of a group (the
first 8 bytes). -/
def SameButBooks (t : ExtType) (p q : Bytes) : Prop :=
  q.length = p.length ∧
  ∀ i : Nat, q[i]? ≠ p[i]? → (t = .creators ∧ i % 34 = 32) ∨ (t = .grouping ∧ i < 8)

/-- The asset with the requested name and mutability. -/
def Asset.retitled (A : Asset) (x : UpdateInput) : Asset :=
  { A with
    name := match x.name with | some n => storedName n | none => A.name
    mutableByte := match x.isMutable with | some m => if m then 1 else 0 | none => A.mutableByte }

/-- The size asked for by a resize of an account of `len` bytes that stores `es`. -/
def resizedTo (len : Nat) (es : List Extn) : Strategy → Nat
  | .trim => packedEnd 168 es
  | .extend n => len + n.toNat

end Verif.Spec
