import Verif.Lemmas.Life
import Verif.Lemmas.Check
import Verif.Examples

/-!
# C08 — immutability is permanent
-/

namespace Verif.Props

open Verif Verif.Spec

section
variable {L L' : Ledger} {program k : Key} {A : Asset}

/-- What stays the same of an immutable asset: everything but owner, lock state, delegate and
group; of the extensions, only verified flags and the group size may change. -/
def Frozen (A A' : Asset) : Prop :=
  A'.name = A.name ∧ A'.authority = A.authority ∧ A'.standard = A.standard ∧
    A'.mutableByte = A.mutableByte ∧ List.Forall₂ SameExtn A.exts A'.exts

theorem frozen_move {E : Env} {accts : List Key} {i : Instr} {A A' : Asset}
    (hm : A.mutableByte = 0) (h : Move E accts k i A A') : Frozen A A' := by
  cases h with
  | verify _ c rest p q _ _ hp hq =>
    exact ⟨rfl, rfl, rfl, rfl, forall2_setExt hp (books_setsFlags hq)⟩
  | unverify _ c rest p q _ _ hp hq =>
    exact ⟨rfl, rfl, rfl, rfl, forall2_setExt hp (books_setsFlags hq)⟩
  | memberIn _ _ p _ _ _ hp hl _ =>
    exact ⟨rfl, rfl, rfl, rfl, forall2_setExt hp (books_withMembers _ (by omega))⟩
  | memberOut _ _ p _ _ _ hp hl =>
    exact ⟨rfl, rfl, rfl, rfl, forall2_setExt hp (books_withMembers _ (by omega))⟩
  | handover _ _ _ _ _ _ _ _ h => exact absurd hm h
  | retitle _ _ _ _ _ _ _ h => exact absurd hm h
  | update _ _ _ _ _ _ _ _ _ h => exact absurd hm h
  | updateFrom _ _ _ _ _ _ _ _ _ _ h => exact absurd hm h
  | remove _ _ _ _ _ _ _ h => exact absurd hm h
  | _ => exact ⟨rfl, rfl, rfl, rfl, forall2_refl _⟩

/-- Any history without burning, by anybody, on any accounts. -/
theorem C08_immutable_partial (hs : Stores program L k A) (hm : A.mutableByte = 0)
    (hl : Life program k L L') : ∃ A', Stores program L' k A' ∧ Frozen A A' := by
  refine Life.invariant (I := fun B => Frozen A B) (fun B hB => hB.2.2.2.1.trans hm) ?_ hs
    ⟨rfl, rfl, rfl, rfl, forall2_refl _⟩ hl
  rintro E accts i B B' _ ⟨h1, h2, h3, h4, h5⟩ hmv
  obtain ⟨g1, g2, g3, g4, g5⟩ := frozen_move (h4.trans hm) hmv
  exact ⟨g1.trans h1, g2.trans h2, g3.trans h3, g4.trans h4, forall2_trans h5 g5⟩

/-- Set, order and length of the extensions stay. -/
theorem C08_shape {A A' : Asset} (h : Frozen A A') :
    A'.exts.map (fun x => (x.1, x.2.length)) = A.exts.map (fun x => (x.1, x.2.length)) := by
  have := h.2.2.2.2
  generalize A.exts = es at this
  generalize A'.exts = es' at this
  induction this with
  | nil => rfl
  | cons h _ ih => rw [List.map_cons, List.map_cons, ih, h.1, h.2.1]

end

section Examples
open Verif.Ex

/-- An immutable asset with creators. -/
def fixedAsset : Asset :=
  ⟨0, 0, 0, k 2, Key.default, k 3, Key.default, 0, podStr35 [65],
    [(.creators, (k 7).1 ++ [0, 100]), (.blob, [1, 2])]⟩

def fixed : Ledger :=
  ledger [(k 1, owned (header 0 0 0 (k 2) Key.default (k 3) Key.default 0 [65] ++
      blocks 168 fixedAsset.exts)), (k 2, wallet), (k 3, wallet), (k 5, wallet), (k 7, wallet)]

example : Stores prog fixed (k 1) fixedAsset := checkStores_sound (by decide +kernel)

/-- The authority cannot change it any more, a creator can still sign. -/
example :
    (run fixed [k 3, k 5] [k 1, k 3, prog, prog, k 5, Key.system]
      (.update ⟨some [66], none, none⟩)).isOk = false ∧
    (run fixed [k 3] [k 1, k 3, prog, k 5] (.remove .blob)).isOk = false ∧
    (run fixed [k 3, k 5] [k 1, k 3, k 5] .handover).isOk = false ∧
    ((run fixed [k 7] [k 1, k 7] .verify).map fun L' => checkStores prog L' (k 1)
      { fixedAsset with exts := [(.creators, (k 7).1 ++ [1, 100]), (.blob, [1, 2])] }) =
      .ok true := by decide +kernel

end Examples

end Verif.Props
