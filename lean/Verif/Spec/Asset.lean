import Verif.Model.Header

/-!
# What an asset account contains

The fields of an asset account as a record. `view` reads them off the account data; together
they determine every byte of it (`view_injective` in `Verif.Lemmas.Header`), so that an
equation between views speaks about the whole account.
-/

namespace Verif.Spec

open Verif

/-- Everything stored in an asset account: the header fields and the bytes after them (the
extensions). -/
structure AssetView where
  disc : UInt8
  state : UInt8
  standard : UInt8
  mutableByte : UInt8
  owner : Key
  group : Key
  authority : Key
  delegate : Key
  roles : UInt8
  name : Bytes
  extensions : Bytes
  deriving DecidableEq, Repr

/-- Reading the fields at their offsets. -/
def view (d : Bytes) : AssetView :=
  ⟨byteAt d 0, byteAt d 1, byteAt d 2, byteAt d 3, keyAt d 4, keyAt d 36, keyAt d 68, keyAt d 100,
    byteAt d 132, slice d 133 35, d.drop 168⟩

/-- The asset stored in an account. -/
def assetAt (L : Ledger) (k : Key) : AssetView := view (L k).data

/-- Account `k` is an initialised asset of the program. -/
def IsAsset (program : Key) (L : Ledger) (k : Key) : Prop :=
  (L k).owner = program ∧ 168 ≤ (L k).data.length ∧ (assetAt L k).disc = 1

/-- The ledgers differ at most in the data of account `k`, whose length is unchanged. -/
def OnlyData (L L' : Ledger) (k : Key) : Prop :=
  (∀ x, x ≠ k → L' x = L x) ∧ (L' k).lamports = (L k).lamports ∧ (L' k).owner = (L k).owner ∧
    (L' k).data.length = (L k).data.length

end Verif.Spec
