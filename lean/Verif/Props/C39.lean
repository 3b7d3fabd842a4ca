import Verif.Lemmas.Moves
import Verif.Lemmas.Check
import Verif.Examples

/-!
# C39 — the program refines the asset state machine

`Spec.Move` describes, on records, what may happen to an asset and who has to sign. Every
successful instruction is such a move for every asset of the ledger, except for two things
the program gets wrong (`Spec.Sound`, see C24 and C25).
-/

namespace Verif.Props

open Verif Verif.Spec

section
variable {E : Env} {L L' : Ledger} {accts : List Key} {k : Key} {A : Asset} {i : Instr}

/-- Whatever instruction succeeds, with whatever accounts: the asset in account `k` is burned, or
it moves as the state machine allows and the account stays well-formed. -/
theorem C39_refinement_partial (hs : Stores E.program L k A) (h : execute E L accts i = .ok L')
    (hsound : Sound k A accts i) :
    (i = .burn ∧ accts.head? = some k ∧ Gone L' k) ∨
      ∃ A', Stores E.program L' k A' ∧ Move E accts k i A A' :=
  refine hs h hsound

/-- An account stores at most one asset, so the move is determined by the instruction. -/
theorem C39_deterministic {B : Asset} (hs : Stores E.program L k A) (hs' : Stores E.program L k B) :
    A = B := hs.unique hs'

end

section Examples
open Verif.Ex

/-- The asset of `managed`. -/
def managedAsset : Asset :=
  ⟨0, 1, 1, k 2, Key.default, k 3, k 4, 7, podStr35 [65, 66],
    [(.attributes, [1, 97, 1, 98]), (.manager, (k 6).1 ++ [3])]⟩

example : Stores prog managed (k 1) managedAsset := checkStores_sound (by decide +kernel)

/-- Its manager transfers it. -/
example : Move (env managed [k 6]) [k 1, k 6, k 5, prog] (k 1) .transfer managedAsset
    { managedAsset with owner := k 5, delegate := Key.default, roles := 0 } :=
  .transfer _ (k 6) (k 5) [prog] rfl (by decide +kernel)
    (Or.inr ⟨⟨k 6, 3⟩, by decide +kernel, rfl, show (3 : UInt8) &&& 1 ≠ 0 by decide⟩) (by decide) (by decide)

/-- The ledger after the transfer. -/
example : ((run managed [k 6] [k 1, k 6, k 5, prog] .transfer).map fun L' =>
    checkStores prog L' (k 1)
      { managedAsset with owner := k 5, delegate := Key.default, roles := 0 }) = .ok true := by
  decide +kernel

end Examples

end Verif.Props
