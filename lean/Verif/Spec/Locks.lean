import Verif.Spec.Accepts

/-!
# Locks that somebody can open
-/

namespace Verif.Spec

open Verif

/-- The signature of somebody is enough to unlock the asset: there is somebody who may, and the data of
the Manager extension, which is looked at first, can be read. -/
def Asset.Openable (A : Asset) : Prop := ManagerReadable A ∧ ∃ s, A.MayLock s

/-- Who may unlock an asset without a manager: the delegate if there is one, else the owner. -/
def Asset.keeper (A : Asset) : Key := if A.delegate = Key.default then A.owner else A.delegate

end Verif.Spec
