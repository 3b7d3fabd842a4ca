import Verif.Spec.Mints

/-!
# What it takes to create an asset with a single instruction
-/

namespace Verif.Spec

open Verif

/-- The extensions are distinct, complete, readable and acceptable from the authority. -/
def InlineOk (authority : Key) (xs : List ExtInput) : Prop :=
  (xs.map (·.ty)).Nodup ∧ ∀ x ∈ xs, x.ty ≠ .none ∧ (given x).length = x.length.toNat ∧
    Readable x.ty (given x) ∧ ∃ q, Born authority (asExtn x) (x.ty, q)

/-- The account `k` is unused and can be paid for by the wallet `p`: both sign and are writable, and
`p` has the rent of `size` bytes, of which there are at most 10 KiB. -/
structure Payable (E : Env) (L : Ledger) (k p : Key) (size : Nat) : Prop where
  signer : E.signer k = true ∧ E.signer p = true
  writable : E.writable k = true ∧ E.writable p = true
  unused : L k = ⟨0, [], Key.system⟩
  other : p ≠ k
  wallet : (L p).owner = Key.system ∧ (L p).data = []
  rent : E.rent size ≤ (L p).lamports
  small : size ≤ 10240

end Verif.Spec
