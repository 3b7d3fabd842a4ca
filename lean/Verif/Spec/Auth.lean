import Verif.Spec.Asset
import Verif.Spec.First

/-!
# Who may act on an asset
-/

namespace Verif.Spec

open Verif

/-- The delegate approved by the holder; the default key means that there is none. -/
def holderDelegate (a : AssetView) : Option Delegate :=
  if a.delegate = Key.default then none else some ⟨a.delegate, a.roles⟩

/-- The delegate that governs an asset: the manager when the asset has one, else the
delegate approved by the holder. -/
def governing (manager holder : Option Delegate) : Option Delegate :=
  match manager with
  | some m => some m
  | none => holder

/-- A delegate holds a role when the role's bit is set: bit 0 transfer, bit 1 lock,
bit 2 burn. -/
def HasRole (x : Delegate) : Role → Prop
  | .none => False
  | .transfer => x.roles &&& 1 ≠ 0
  | .lock => x.roles &&& 2 ≠ 0
  | .burn => x.roles &&& 4 ≠ 0

/-- `k` is the governing delegate of the asset stored in `d`, with the role. -/
def IsDelegate (d : Bytes) (k : Key) (r : Role) : Prop :=
  ∃ m x, HasManager d m ∧ governing m (holderDelegate (view d)) = some x ∧
    x.address = k ∧ HasRole x r

end Verif.Spec
