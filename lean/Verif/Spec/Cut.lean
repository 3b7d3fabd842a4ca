import Verif.Spec.Edits

/-!
# What is left when bytes are cut out of an account
-/

namespace Verif.Spec

open Verif

/-- `d` without the bytes from `off` up to `b`. -/
def cut (off b : Nat) (d : Bytes) : Bytes := d.take off ++ d.drop b

/-- `t` is the type of the extension after `pre`, and there is none of that type before. -/
def FoundAt (t : ExtType) (pre : List Extn) (p : Bytes) (post es : List Extn) : Prop :=
  es = pre ++ (t, p) :: post ∧ ∀ x ∈ pre, x.1 ≠ t

/-- The offset at which a search arrives that has passed the extension after the removed one: the end
stored in that extension, which was right before the removal. -/
def staleEnd (pre : List Extn) (t : ExtType) (p : Bytes) (post : List Extn) : Nat :=
  packedEnd 168 (pre ++ (t, p) :: post.take 1)

end Verif.Spec
