import Verif.Model.JsTyped
import Verif.Spec.JsMint

/-!
# What a creation in one instruction should lead to
-/

namespace Verif.Spec

open Verif

/-- The order in which the extensions of one instruction end up: the first one, then the others from
the last to the second. -/
def createdOrder {α : Type} : List α → List α
  | [] => []
  | v :: vs => v :: vs.reverse

/-- The request with the given extensions. -/
def withExts (x : JsMintArgs) (exts : Option (List JsExt)) : JsMintArgs :=
  { x with extensions := exts.getD [] }

/-- The request with the extensions in the order in which they end up. -/
def reordered (x : JsMintArgs) (exts : Option (List JsExt)) : JsMintArgs :=
  { x with extensions := createdOrder (exts.getD []) }

end Verif.Spec
