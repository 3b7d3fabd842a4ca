import Verif.Spec.Memory
import Verif.Spec.Mints

/-!
# A header inside the data of an extension

After the removal of an extension, the end stored in the next one is where that one ended before. A
search of the account goes on there: in the data of a later extension, if that is long enough.
-/

namespace Verif.Spec

open Verif

/-- The header of an empty extension of type Attributes that ends before it starts: at offset 24. -/
def falseHeader : Bytes := toLE 4 1 ++ toLE 4 0 ++ toLE 4 24 ++ zeros 4

/-- The data of the blob: an empty content type and whatever `c` has for it, the header, and 8 more
bytes. -/
def planted (c : Bytes) : Bytes := c ++ falseHeader ++ zeros 8

/-- The extensions of the asset: metadata as long as `c`, then links, then the blob. Once the metadata
are removed, the end stored with the links is where the false header lies. -/
def plantedExts (c : Bytes) : List Extn :=
  [(.metadata, zeros c.length), (.links, zeros 8), (.blob, planted c)]

/-- The account of an asset from which the metadata have been removed. -/
structure Uprooted (L : Ledger) (a : Key) (c : Bytes) : Prop where
  size : (L a).data.length = 232 + c.length
  links : hdrAt (L a).data 168 = ⟨4, 8, 208 + c.length⟩
  header : hdrAt (L a).data (208 + c.length) = ⟨1, 0, 24⟩
  content : slice (L a).data 208 c.length = c

/-- Kind, standard, mutability and authority are what they were. -/
def SameHead (L L' : Ledger) (a : Key) : Prop :=
  (assetAt L' a).disc = (assetAt L a).disc ∧ (assetAt L' a).standard = (assetAt L a).standard ∧
    (assetAt L' a).mutableByte = (assetAt L a).mutableByte ∧
    (assetAt L' a).authority = (assetAt L a).authority

/-- The extension that Remove finds does not end before it starts. -/
def Forward (L : Ledger) (a : Key) (t : ExtType) : Prop :=
  ∀ off b, removeFind t (L a).data ((L a).data.length + 1) assetLen = .ok (some (off, b)) → off ≤ b

end Verif.Spec
