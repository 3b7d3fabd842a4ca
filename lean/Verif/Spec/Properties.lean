import Verif.Model.Properties

/-!
# What a property is by name
-/

namespace Verif.Spec

/-- The first of the pairs with the name. -/
def FirstNamed {α : Type} (l : List (Bytes × α)) (name : Bytes) (v : α) : Prop :=
  ∃ before after, l = before ++ (name, v) :: after ∧ ∀ p ∈ before, p.1 ≠ name

/-- The type of a value. -/
def typeOf : PropValue → PropType
  | .text _ => .text
  | .number _ => .number
  | .boolean _ => .boolean

/-- A boolean is 0 or 1. -/
def ZeroOne : PropValue → Prop
  | .boolean b => b ≤ 1
  | _ => True

end Verif.Spec
