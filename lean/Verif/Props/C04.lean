import Verif.Lemmas.Life
import Verif.Lemmas.Check
import Verif.Examples

/-!
# C04 — a locked asset is frozen
-/

namespace Verif.Props

open Verif Verif.Spec

section
variable {E : Env} {L L' : Ledger} {accts : List Key} {program k : Key} {A : Asset} {i : Instr}

/-- With a locked asset among the first seven accounts, wherever it stands, Approve, Burn, Lock,
Revoke and Transfer fail. No assumption on the extensions. -/
theorem C04_rejected (ha : IsAsset E.program L k) (hs : (assetAt L k).state = 1)
    (hk : k ∈ accts.take 7)
    (hi : i = .transfer ∨ i = .burn ∨ i = .lock ∨ (∃ x, i = .approve x) ∨ ∃ x, i = .revoke x) :
    ∃ e, execute E L accts i = .error e := by
  cases h : execute E L accts i with
  | error e => exact ⟨e, rfl⟩
  | ok L' =>
    have hb : i.blockedByLock = true := by
      rcases hi with rfl | rfl | rfl | ⟨x, rfl⟩ | ⟨x, rfl⟩ <;> rfl
    exact absurd hs (not_locked h hb hk ha.1 ⟨ha.2.1, ha.2.2⟩)

/-- In every history in which nobody unlocks the asset, it stays locked, with the same owner and
delegate. -/
theorem C04_frozen_partial {P : List Key → Instr → Prop}
    (hP : ∀ accts i, P accts i → ¬ (i = .unlock ∧ accts.head? = some k))
    (hs : Stores program L k A) (hst : A.state = 1) (hl : SoundLife program k P L L') :
    ∃ A', Stores program L' k A' ∧ A'.state = 1 ∧ A'.owner = A.owner ∧ A'.delegate = A.delegate ∧
      A'.roles = A.roles := by
  refine SoundLife.invariant (I := fun B => B.state = 1 ∧ B.owner = A.owner ∧
    B.delegate = A.delegate ∧ B.roles = A.roles) ?_ hs ⟨hst, rfl, rfl, rfl⟩ hl
  rintro E accts i B B' _ hp ⟨h1, h2, h3, h4⟩ hm
  cases hm with
  | unlock _ s rest ha => exact absurd ⟨rfl, by rw [ha]; rfl⟩ (hP _ _ hp)
  | transfer _ _ _ _ _ _ _ h => exact absurd h1 h
  | approve _ _ _ _ _ _ _ _ _ h => exact absurd h1 h
  | revoke _ _ _ _ _ _ _ _ _ h => exact absurd h1 h
  | lock _ _ _ _ _ _ h => exact absurd h1 h
  | _ => exact ⟨h1, h2, h3, h4⟩

/-- Nor can it be burned. -/
theorem C04_not_burned (ha : IsAsset E.program L k) (hs : (assetAt L k).state = 1)
    (hk : accts.head? = some k) : ∃ e, execute E L accts .burn = .error e := by
  cases accts with
  | nil => cases hk
  | cons a rest =>
    obtain rfl : a = k := by simpa using hk
    exact C04_rejected ha hs (by simp) (by simp)

end

section Examples
open Verif.Ex

/-- A locked asset whose owner did not approve a delegate. -/
def lockedL : Ledger :=
  ledger [(k 1, owned (header 1 0 1 (k 2) Key.default (k 3) Key.default 0 [65, 66])),
    (k 2, wallet), (k 3, wallet), (k 4, wallet), (k 5, wallet)]

example : Stores prog lockedL (k 1)
    ⟨1, 0, 1, k 2, Key.default, k 3, Key.default, 0, podStr35 [65, 66], []⟩ :=
  checkStores_sound (by decide +kernel)

example :
    [run lockedL [k 2] [k 1, k 2, k 5, prog] .transfer, run lockedL [k 2] [k 1, k 2, k 5] (.approve .all),
      run lockedL [k 2] [k 1, k 2, k 5, prog] .burn, run lockedL [k 2] [k 1, k 2] .lock,
      run lockedL [k 2] [k 1, k 2] .unlock].map (·.isOk) = [false, false, false, false, true] := by
  decide +kernel

end Examples

end Verif.Props
