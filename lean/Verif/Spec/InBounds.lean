import Verif.Spec.WellFormed

/-!
# Memory accesses

The program moves and copies bytes through raw pointers in three instructions. The model ends with
`Err.oob` when such an access goes past the data of the account.
-/

namespace Verif.Spec

open Verif

/-- Extension data that comes with the instruction has less than 1 GiB. (What is passed to a program
has at most 10 KiB.) -/
def Modest : Instr → Prop
  | .allocate x => ∀ p, x.data = some p → p.length < 1073741824
  | .create x => ∀ y ∈ asked x, ∀ p, y.data = some p → p.length < 1073741824
  | .update x => ∀ e, x.extension = some e → e.length.toNat < 1073741824
  | _ => True

/-- The instruction does not name the extension type None. -/
def NamesType : Instr → Prop
  | .update x => ∀ e, x.extension = some e → e.ty ≠ .none
  | .remove t => t ≠ .none
  | _ => True

/-- The instruction moves no bytes by offsets that it reads from the account. -/
def Plain : Instr → Prop
  | .write _ | .update _ | .remove _ => False
  | _ => True

end Verif.Spec
