import Verif.Model.Program

/-!
# Instructions that may arrive twice
-/

namespace Verif.Spec

open Verif

/-- The instructions that do not touch the extensions of the account they work on, nor build up an
account. -/
def Repeatable : Instr → Prop
  | .close | .burn | .create _ | .approve _ | .lock | .revoke _ | .transfer | .unlock | .group
  | .ungroup | .handover => True
  | .allocate _ | .unverify | .update _ | .verify | .write _ | .remove _ | .resize _ => False

/-- No buffer is passed to an Update. -/
def Unbuffered (program : Key) (accts : List Key) (i : Instr) : Prop :=
  ∀ x, i = .update x → accts[2]? = some program

end Verif.Spec
