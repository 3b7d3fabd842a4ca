import Verif.Spec.Moves

/-!
# Creators of an asset
-/

namespace Verif.Spec

open Verif

/-- Address `c` is a verified creator, according to one of the extensions. -/
def VerifiedIn (es : List Extn) (c : Key) : Prop :=
  ∃ p, (ExtType.creators, p) ∈ es ∧ ∃ r ∈ creatorList p, r.address = c ∧ r.verified ≠ 0

/-- The instruction is no update from a buffer. -/
def NoBuffer (program : Key) (accts : List Key) : Instr → Prop
  | .update x => x.extension = none → accts[2]? = none ∨ accts[2]? = some program
  | _ => True

end Verif.Spec
