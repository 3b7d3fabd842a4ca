import Verif.Spec.Layout
import Verif.Model.Align

/-!
# Aligned views
-/

namespace Verif.Spec

open Verif

/-- Each view of data at the address `a` begins at a multiple of the alignment of its type. -/
def Aligned (a : Nat) (vs : List View) : Prop := ∀ v ∈ vs, v.2 ∣ a + v.1

/-- The data is as the builders make it: a group has at least its two numbers, and royalties are a number and
a constraint. -/
def Regular (t : ExtType) (p : Bytes) : Prop :=
  (t = .grouping → 16 ≤ p.length) ∧
  (t = .royalties → ∃ bp c, (buildC c).length ≤ 2 ^ 32 ∧ p = royaltiesBuilderSet bp (buildC c))

/-- The types whose data contains 8-byte numbers. -/
def Numeric (t : ExtType) : Prop := t = .grouping ∨ t = .royalties

/-- The length of the new name of an Update. -/
def nameLength (x : UpdateInput) : Nat := (x.name.getD []).length

end Verif.Spec
