import Verif.Lemmas.Life
import Verif.Lemmas.Check
import Verif.Examples

/-!
# C03 — soulbound assets never change hands
-/

namespace Verif.Props

open Verif Verif.Spec

section
variable {E : Env} {L L' : Ledger} {accts : List Key} {program k : Key} {A : Asset}

/-- Transfer always fails on a soulbound asset, whatever its extensions look like. -/
theorem C03_transfer_fails (ha : IsAsset E.program L k) (hs : (assetAt L k).standard = 2)
    (hk : accts.head? = some k) : ∃ e, execute E L accts .transfer = .error e := by
  cases h : execute E L accts .transfer with
  | error e => exact ⟨e, rfl⟩
  | ok L' =>
    obtain ⟨a, s, r, g, rest, rfl, hp⟩ := exec_transfer h
    obtain rfl : a = k := by simpa using hk
    unfold processTransfer at hp
    inv at hp
    obtain ⟨_, _, _, _, _, hst, _⟩ := hp
    exact absurd hs hst

theorem soulbound_move {A A' : Asset} {i : Instr} (h : A.standard = 2)
    (hm : Move E accts k i A A') : A'.standard = 2 ∧ A'.owner = A.owner := by
  cases hm <;> first
    | exact ⟨h, rfl⟩
    | (exact absurd h ‹_›)

/-- Any history without burning: the owner stays. -/
theorem C03_soulbound_partial {P : List Key → Instr → Prop} (hs : Stores program L k A)
    (hsoul : A.standard = 2) (hl : SoundLife program k P L L') :
    ∃ A', Stores program L' k A' ∧ A'.standard = 2 ∧ A'.owner = A.owner := by
  refine SoundLife.invariant (I := fun B => B.standard = 2 ∧ B.owner = A.owner) ?_ hs ⟨hsoul, rfl⟩ hl
  rintro E accts i B B' _ _ ⟨h1, h2⟩ hm
  obtain ⟨g1, g2⟩ := soulbound_move h1 hm
  exact ⟨g1, g2.trans h2⟩

/-- For immutable soulbound assets there is no restriction on the history. -/
theorem C03_soulbound_immutable (hs : Stores program L k A) (hsoul : A.standard = 2)
    (hm : A.mutableByte = 0) (hl : Life program k L L') :
    ∃ A', Stores program L' k A' ∧ A'.standard = 2 ∧ A'.owner = A.owner := by
  obtain ⟨A', h1, h2, h3, _⟩ := Life.invariant
    (I := fun B => B.standard = 2 ∧ B.owner = A.owner ∧ B.mutableByte = 0)
    (fun B hB => hB.2.2) (by
      rintro E accts i B B' _ ⟨h1, h2, h3⟩ hm
      obtain ⟨g1, g2⟩ := soulbound_move h1 hm
      refine ⟨g1, g2.trans h2, ?_⟩
      cases hm <;> first
        | exact h3
        | (exact absurd h3 ‹_›)) hs ⟨hsoul, rfl, hm⟩ hl
  exact ⟨A', h1, h2, h3⟩

end

section Examples
open Verif.Ex

/-- A soulbound asset. -/
def soul : Ledger :=
  ledger [(k 1, owned (header 0 2 1 (k 2) Key.default (k 3) (k 4) 7 [65, 66])),
    (k 2, wallet), (k 3, wallet), (k 4, wallet), (k 5, wallet)]

example : Stores prog soul (k 1)
    ⟨0, 2, 1, k 2, Key.default, k 3, k 4, 7, podStr35 [65, 66], []⟩ :=
  checkStores_sound (by decide +kernel)

example : Ex.after (run soul [k 2] [k 1, k 2, k 5, prog] .transfer) (k 1) =
    .error (.asset .cannotTransferSoulbound) := by decide +kernel

/-- Other instructions do succeed on it. -/
example : (run soul [k 4] [k 1, k 4] .lock).isOk = true ∧
    (run soul [k 3] [k 1, k 3, prog, prog, k 5, prog]
      (.update ⟨some [67], some false, none⟩)).isOk = true := by decide +kernel

end Examples

end Verif.Props
