import Verif.Spec.Accepts

/-!
# The accounts of a request, as far as exact conditions for acceptance need them
-/

namespace Verif.Spec

open Verif

/-- A locked asset of the program. -/
def LockedAt (program : Key) (L : Ledger) (x : Key) : Prop :=
  (L x).owner = program ∧ byteAt (L x).data 0 = 1 ∧ byteAt (L x).data 1 = 1

/-- The constraint of the royalties of `A`, if it can be read, only speaks of the three accounts
there are: asset, authority and recipient. -/
def Understood (L : Ledger) (k s r : Key) (A : Asset) : Prop :=
  ∀ p c, lookup .royalties A.exts = some p → parseConstraint (p.drop 8) = .ok c →
    Scoped ⟨targetAt L k, targetAt L s, some (targetAt L r)⟩ c

/-- If the account is an asset of the program at all, it is a well-formed one. -/
def AssetOrNone (program : Key) (L : Ledger) (g : Key) (P : Asset → Prop) : Prop :=
  (L g).owner = program → byteAt (L g).data 0 = 1 → ∃ G, Stores program L g G ∧ P G

/-- The data of the Grouping extension, if any, has the size of a group. -/
def GroupReadable (A : Asset) : Prop :=
  ∀ p, lookup .grouping A.exts = some p → 16 ≤ p.length ∧ p.length ≤ 48

end Verif.Spec
