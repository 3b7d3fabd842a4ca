import Verif.Spec.Moves

/-!
# Taking back what was done
-/

namespace Verif.Spec

open Verif

/-- The asset has no delegate. -/
def NoDelegate (A : Asset) : Prop := A.delegate = Key.default ∧ A.roles = 0

/-- None of the records of the creator `c` is marked as verified. -/
def Unflagged (c : Key) (A : Asset) : Prop :=
  ∀ p, lookup .creators A.exts = some p → ∀ i, i * 34 + 34 ≤ p.length →
    slice p (i * 34) 32 = c.1 → byteAt p (i * 34 + 32) = 0

/-- The Update leaves name and mutability alone. -/
def Untitled (x : UpdateInput) : Prop := x.name = none ∧ x.isMutable = none

end Verif.Spec
