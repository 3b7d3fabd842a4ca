import Verif.Spec.Moves
import Verif.Spec.Buffer

/-!
# New assets
-/

namespace Verif.Spec

open Verif

/-- The account has no data, or it is a buffer with the extensions `es` written to it. -/
def Unborn (L : Ledger) (k : Key) (es : List Extn) : Prop :=
  ((L k).data = [] ∧ es = []) ∨ AllWritten (L k).data es

/-- The asset asked for: unlocked, without delegate. -/
def newAsset (x : CreateInput) (owner authority : Key) (group : Option Key) (es : List Extn) :
    Asset :=
  ⟨0, x.standard.toU8, if x.isMutable then 1 else 0, owner, group.getD Key.default, authority,
    Key.default, 0, storedName x.name, es⟩

/-- The extensions asked for. -/
def asked (x : CreateInput) : List ExtInput := x.extensions.getD []

/-- An extension as the input gives it. -/
def asExtn (x : ExtInput) : Extn := (x.ty, given x)

/-- `y` is what is stored for `x` when the authority creates the asset. -/
def Born (authority : Key) (x y : Extn) : Prop :=
  y.1 = x.1 ∧ Accepted (some authority) x.1 none x.2 y.2

/-- The inputs have a type and fit into an account. -/
def Sane (xs : List ExtInput) : Prop := ∀ x ∈ xs, Fits x ∧ x.ty ≠ .none

end Verif.Spec
