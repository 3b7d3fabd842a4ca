import Verif.Spec.Capture
import Verif.Spec.Forge

/-!
# Groups that no longer exist
-/

namespace Verif.Spec

open Verif

/-- The account was never put to use in the program, or is not in use any more: if it belongs to the
program, all its bytes are zero. -/
def Hollow (program : Key) (L : Ledger) (g : Key) : Prop :=
  (L g).owner = program → ∀ b ∈ (L g).data, b = 0

/-- Taking the asset `k` with the authority `au` into a new group `g`; forging a member of the group in
account `f` and burning it, so that the group has no members on record; and burning the group. `s` and
`p` are the wallets of the one who does this. -/
def orphan (k g f s p au : Key) : List Call :=
  intake k g s au ++ shrink f p g ++ [.burn g s (some s) none]

/-- The immutable asset `k` of `owner` is in the group `g`, which does not exist, and has no royalties
of its own. -/
structure Orphaned (program : Key) (L : Ledger) (k g owner : Key) : Prop where
  real : g ≠ Key.default
  account : g ≠ program
  lost : Hollow program L g
  asset : ∃ A, Stores program L k A ∧ A.group = g ∧ A.owner = owner ∧ A.mutableByte = 0 ∧
    lookup .royalties A.exts = none

end Verif.Spec
