import Verif.Spec.WellFormed

/-!
# Since when something holds of an asset
-/

namespace Verif.Spec

open Verif

/-- Histories of instructions used as intended, in which account `k` stores an asset with `P` all the
time. -/
inductive Since (program k : Key) (P : Asset → Prop) : Ledger → Ledger → Prop
  | refl {L : Ledger} {A : Asset} (h : Stores program L k A) (hP : P A) : Since program k P L L
  | tail {L L' L'' : Ledger} {A : Asset} (hs : Since program k P L L')
      (h : ProperStep program L' L'') (ha : Stores program L'' k A) (hP : P A) :
      Since program k P L L''

/-- The asset belongs to `o`, and `d` is the delegate of the holder, with the role. -/
def Asset.Entrusted (A : Asset) (o d : Key) (r : Role) : Prop :=
  A.owner = o ∧ A.delegate = d ∧ HasRole ⟨d, A.roles⟩ r

/-- In this history `k` was created with `o` as its owner, or somebody transferred it to `o` who was
its owner or a delegate with that role, and signed; and it has belonged to `o` ever since. -/
def Acquired (program k o : Key) (L0 L : Ledger) : Prop :=
  ∃ E L1 L2 accts i, E.program = program ∧ ProperSteps program L0 L1 ∧
    execute E L1 accts i = .ok L2 ∧ Since program k (·.owner = o) L2 L ∧
    ((∃ x au rest, i = .create x ∧ accts = k :: au :: o :: rest ∧ E.signer k = true ∧
        ¬ IsAsset program L1 k) ∨
      ∃ B s rest, i = .transfer ∧ accts = k :: s :: o :: rest ∧ Stores program L1 k B ∧
        B.owner ≠ o ∧ E.signer s = true ∧ (B.owner = s ∨ B.Delegated s .transfer) ∧
        B.state ≠ 1 ∧ B.standard ≠ 2)

/-- In this history `k` was created with `a` as its authority, or the authority of the time handed it
over to `a`, and both signed; and `a` has been its authority ever since. -/
def TookOver (program k a : Key) (L0 L : Ledger) : Prop :=
  ∃ E L1 L2 accts i, E.program = program ∧ ProperSteps program L0 L1 ∧
    execute E L1 accts i = .ok L2 ∧ Since program k (·.authority = a) L2 L ∧
    ((∃ x rest, i = .create x ∧ accts = k :: a :: rest ∧ E.signer k = true ∧
        ¬ IsAsset program L1 k) ∨
      ∃ B s rest, i = .handover ∧ accts = k :: s :: a :: rest ∧ Stores program L1 k B ∧
        B.authority ≠ a ∧ B.authority = s ∧ E.signer s = true ∧ E.signer a = true ∧
        B.mutableByte ≠ 0)

/-- In this history `k` was locked by somebody who signed and was entitled to, and it has been locked
ever since. -/
def LockedBy (program k : Key) (L0 L : Ledger) : Prop :=
  ∃ E L1 L2 s rest B, E.program = program ∧ ProperSteps program L0 L1 ∧
    execute E L1 (k :: s :: rest) .lock = .ok L2 ∧ Stores program L1 k B ∧ B.state ≠ 1 ∧
    E.signer s = true ∧ B.MayLock s ∧ Since program k (·.state = 1) L2 L

end Verif.Spec
