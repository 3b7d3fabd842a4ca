import Verif.Model.Borsh

/-!
# Calling the asset program from another program

`solana_program::program::invoke_signed`. Not repository code: modelled from the documented
behaviour of the runtime.
-/

namespace Verif

/-- `AccountMeta`. -/
structure Meta where
  key : Key
  signer : Bool
  writable : Bool
  deriving DecidableEq, Repr

/-- What the called program observes: the privileges requested by the caller (those of a repeated
account are merged), and the lengths of the accounts when the call starts. -/
def calleeEnv (E : Env) (callee : Key) (L : Ledger) (metas : List Meta) : Env where
  program := callee
  rent := E.rent
  inCpi := true
  pda := E.pda
  signer k := metas.any fun m => m.key = k && m.signer
  writable k := metas.any fun m => m.key = k && m.writable
  origLen k := (L k).data.length

/-- The runtime refuses a privilege the caller does not have; the caller signs in addition for the
addresses `pdas` derived from its own id. -/
def mayRequest (E : Env) (pdas : List Key) (m : Meta) : Bool :=
  (!m.signer || E.signer m.key || pdas.contains m.key) && (!m.writable || E.writable m.key)

/-- `invoke_signed` of the asset program. A limit on the growth of an account over the whole outer
instruction is left out (the real call may fail more often). -/
def invokeAsset (E : Env) (assetId : Key) (pdas : List Key) (L : Ledger) (metas : List Meta)
    (data : Bytes) : Except Err Ledger :=
  if metas.all (mayRequest E pdas) then
    executeBytes (calleeEnv E assetId L metas) L (metas.map (·.key)) data
  else .error .runtime

end Verif
