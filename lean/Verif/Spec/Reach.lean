import Verif.Spec.Memory
import Verif.Spec.Birth
import Verif.Spec.Strangers

/-!
# Which accounts an instruction can reach
-/

namespace Verif.Spec

open Verif

/-- Positions of the accounts that are declared writable —
programs/asset/program/src/instruction.rs:12-143. -/
def declared : Instr → List Nat
  | .close => [0, 1]
  | .burn => [0, 1, 2, 3]
  | .create _ => [0, 3, 5]
  | .allocate _ | .write _ | .group | .ungroup => [0, 1]
  | .update _ => [0, 2, 4]
  | .remove _ => [0, 3]
  | .resize _ => [0, 2]
  | _ => [0]

/-- The accounts at some positions. -/
def accountsAt (ps : List Nat) (accts : List Key) : List Key := ps.filterMap fun p => accts[p]?

/-- The data that comes with the instruction has at most 10 KiB, as it always has: a transaction has
1232 bytes, and a program passes at most 10 KiB to another. -/
def Small : Instr → Prop
  | .update x => ∀ e p, x.extension = some e → e.data = some p → p.length ≤ 10240
  | .write x => x.bytes.length ≤ 10240
  | .allocate x => ∀ p, x.data = some p → p.length ≤ 10240
  | .create x => ∀ y ∈ asked x, ∀ p, y.data = some p → p.length ≤ 10240
  | _ => True

/-- The instruction does not remove an extension. -/
def NotRemove : Instr → Prop
  | .remove _ => False
  | _ => True

/-- Positions of the accounts whose data the instruction writes. -/
def stored : Instr → List Nat
  | .burn | .create _ => [0, 3]
  | .group | .ungroup => [0, 1]
  | .update _ => [0, 2]
  | _ => [0]

/-- What holds of the memory of an instruction: `Loaded`, and all accounts together have less than
1 GiB. -/
def Mapped (M : Loader) (E : Env) (L : Ledger) (accts : List Key) : Prop :=
  Loaded E L accts ∧ (image M E (.start L) accts).length < 1073741824

/-- Histories in the memory of the program in which none of those signs who have a say in the asset `A`
in account `k`, nor the account itself, and no removal leaves the account that it is about. -/
inductive RawStrangers (program k : Key) (A : Asset) : Ledger → Ledger → Prop
  | refl (L : Ledger) : RawStrangers program k A L L
  | instr {L L' L'' : Ledger} (M : Loader) (E : Env) (accts : List Key) (i : Instr)
      (hl : RawStrangers program k A L L') (hp : E.program = program) (hm : Mapped M E L' accts)
      (hi : Small i) (h : executeRaw M E L' accts i = .ok L'') (ho : Outside E A)
      (hk : E.signer k = false) (hr : NotRemove i ∨ execute E L' accts i ≠ .error .oob) :
      RawStrangers program k A L L''
  | foreign {L L' L'' : Ledger} (hl : RawStrangers program k A L L') (h : Foreign program L' L'') :
      RawStrangers program k A L L''

end Verif.Spec
