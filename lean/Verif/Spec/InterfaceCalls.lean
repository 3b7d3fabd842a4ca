import Verif.Spec.Privileges
import Verif.Spec.Cpi
import Verif.Model.InterfaceCalls

/-!
# What a calling program may pass on
-/

namespace Verif.Spec

open Verif

/-- The asset program called with everything the caller may pass on: its own privileges, and the
signatures of addresses derived from its id. -/
def passing (E : Env) (id : Key) (pdas : List Key) (L : Ledger) : Env where
  program := id
  rent := E.rent
  inCpi := true
  pda := E.pda
  signer k := E.signer k || pdas.contains k
  writable := E.writable
  origLen k := (L k).data.length

end Verif.Spec
