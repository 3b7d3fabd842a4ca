import Verif.Spec.Layout

/-!
# Accounts that hold extensions of types this program does not know

A later version of the program may store extensions with other type numbers.
-/

namespace Verif.Spec

open Verif

/-- From offset `off` on, headers with these type numbers stand at these offsets, each pointing
forward to the next one; the last one points to `e`. -/
inductive Trail (d : Bytes) : Nat → List (Nat × Nat) → Nat → Prop
  | nil {off : Nat} : Trail d off [] off
  | cons {off bnd e n : Nat} {rest : List (Nat × Nat)} (room : off + 16 ≤ d.length) (hn : n ≠ 0)
      (h0 : leNat (slice d off 4) = n) (h2 : leNat (slice d (off + 8) 4) = bnd) (hb : off < bnd)
      (hr : Trail d bnd rest e) : Trail d off ((n, off) :: rest) e

/-- The number of an extension type of this version. -/
def known (n : Nat) : Bool := decide (1 ≤ n ∧ n ≤ 11)

end Verif.Spec
