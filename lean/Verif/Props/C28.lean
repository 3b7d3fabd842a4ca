import Verif.Lemmas.Life
import Verif.Lemmas.Check
import Verif.Examples

/-!
# C28 — only unfinished buffers can be closed, by themselves
-/

namespace Verif.Props

open Verif Verif.Spec

section
variable {E : Env} {L L' : Ledger} {accts : List Key} {program k : Key} {A : Asset} {i : Instr}

/-- A successful Close: the account belongs to the program, signed, and is empty or
uninitialised; its lamports go to the recipient. -/
theorem C28_close (h : execute E L accts .close = .ok L') :
    ∃ buffer recipient rest, accts = buffer :: recipient :: rest ∧ E.signer buffer = true ∧
      (L buffer).owner = E.program ∧
      ((L buffer).data = [] ∨ (assetAt L buffer).disc = 0) ∧ Gone L' buffer ∧
      recipient ≠ buffer ∧
      L' recipient = { L recipient with
        lamports := (L recipient).lamports + (L buffer).lamports } ∧
      ∀ x, x ≠ buffer → x ≠ recipient → L' x = L x := by
  obtain ⟨b, r, rest, rfl, hp⟩ := exec_close h
  unfold processClose at hp
  inv at hp
  obtain ⟨h1, h2, h3, h4⟩ := hp
  refine ⟨b, r, rest, rfl, h1, h2, h3, close_self h4, ?_⟩
  unfold closeAccount at h4
  split at h4
  · cases h4
  · rename_i hne
    split at h4
    · cases h4
    · cases h4
      refine ⟨hne, ?_, fun x hx hr => ?_⟩
      · rw [Ledger.set_other _ _ hne, Ledger.setLamports_same]
      · rw [Ledger.set_other _ _ hx, Ledger.setLamports_other _ _ hr]

/-- An initialised asset cannot be closed. -/
theorem C28_asset_not_closed (ha : IsAsset E.program L k) (hk : accts.head? = some k) :
    ∃ e, execute E L accts .close = .error e := by
  cases h : execute E L accts .close with
  | error e => exact ⟨e, rfl⟩
  | ok L' =>
    obtain ⟨b, r, rest, rfl, _, _, h3, _⟩ := C28_close h
    obtain rfl : b = k := by simpa using hk
    obtain ⟨_, h4, h5⟩ := ha
    rcases h3 with h3 | h3
    · rw [h3] at h4; simp at h4
    · rw [h3] at h5; exact absurd h5 (by decide)

/-- An initialised asset disappears only through Burn: in any other history it is still there. -/
theorem C28_only_burn_partial {P : List Key → Instr → Prop} (hs : Stores program L k A)
    (hl : SoundLife program k P L L') : ∃ A', Stores program L' k A' := by
  obtain ⟨A', h, _⟩ := SoundLife.invariant (I := fun _ => True) (fun _ _ _ _ _ _ _ _ _ => trivial)
    hs trivial hl
  exact ⟨A', h⟩

/-- For immutable assets without any restriction on the history. -/
theorem C28_only_burn_immutable (hs : Stores program L k A) (hm : A.mutableByte = 0)
    (hl : Life program k L L') : ∃ A', Stores program L' k A' := by
  obtain ⟨A', h, _⟩ := Life.invariant (I := fun B => B.mutableByte = 0) (fun _ h => h) (by
    intro E accts i B B' _ h3 hm
    cases hm <;> first
      | exact h3
      | (exact absurd h3 ‹_›)) hs hm hl
  exact ⟨A', h⟩

end

section Examples
open Verif.Ex

/-- An unfinished buffer is closed; an asset is not; a buffer that did not sign neither. -/
example :
    let L := ledger [(k 1, owned (header 0 0 1 (k 2) Key.default (k 3) (k 4) 7 [65])),
      (k 8, owned (zeros 168 ++ blocks 168 [(.blob, [1])])), (k 2, wallet)]
    after (run L [k 8] [k 8, k 2] .close) (k 2) = .ok ⟨6000000, [], Key.system⟩ ∧
    after (run L [k 8] [k 8, k 2] .close) (k 8) = .ok ⟨0, [], Key.system⟩ ∧
    after (run L [k 1] [k 1, k 2] .close) (k 2) = .error (.asset .alreadyInitialized) ∧
    after (run L [k 2] [k 8, k 2] .close) (k 2) = .error .missingRequiredSignature := by
  decide +kernel

end Examples

end Verif.Props
