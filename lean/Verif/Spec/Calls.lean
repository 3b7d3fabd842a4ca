import Verif.Model.Mint
import Verif.Spec.Wire
import Verif.Spec.Birth

/-!
# What the calls of a client mean
-/

namespace Verif.Spec

open Verif

/-- The instruction that a call stands for. -/
def instrOf : Call → Instr
  | .close .. => .close
  | .burn .. => .burn
  | .create _ _ _ _ _ _ _ x => .create x
  | .approve _ _ _ x => .approve x
  | .allocate _ _ _ x => .allocate x
  | .lock .. => .lock
  | .revoke _ _ x => .revoke x
  | .transfer .. => .transfer
  | .unlock .. => .unlock
  | .unverify .. => .unverify
  | .update _ _ _ _ _ _ x => .update x
  | .verify .. => .verify
  | .write _ _ _ x => .write x
  | .group .. => .group
  | .ungroup .. => .ungroup
  | .handover .. => .handover
  | .remove _ _ _ _ t => .remove t
  | .resize _ _ _ _ s => .resize s

/-- All instructions of the list are executed in order. In between anything may happen that
leaves the data of account `k` alone and does not take it away from the program. -/
inductive Submitted (program k : Key) : Ledger → List ClientIx → Ledger → Prop
  | done (L : Ledger) : Submitted program k L [] L
  | send {L L' L'' : Ledger} {x : ClientIx} {xs : List ClientIx} (E : Env)
      (hp : E.program = program) (hl : ∀ a, E.origLen a = (L a).data.length)
      (h : executeBytes E L x.keys x.data = .ok L') (hr : Submitted program k L' xs L'') :
      Submitted program k L (x :: xs) L''
  | other {L L' L'' : Ledger} {xs : List ClientIx} (hd : (L' k).data = (L k).data)
      (ho : (L k).owner = program → (L' k).owner = program)
      (hr : Submitted program k L' xs L'') : Submitted program k L xs L''

/-- The Create that ends a mint. -/
def createOf (x : MintArgs) : CreateInput := ⟨x.name, x.standard, x.isMutable, none⟩

end Verif.Spec
