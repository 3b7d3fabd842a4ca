import Verif.Model.Program

/-!
# What forwarding an instruction means
-/

namespace Verif.Spec

open Verif

/-- `F` is what the asset program sees when a program with environment `E` passes on all of its
accounts and signs for the account `a` in addition: the same privileges for the accounts passed,
none for any other account, and nothing more than the signature of `a`. -/
structure Forwarded (E : Env) (assetId : Key) (L : Ledger) (accts : List Key) (a : Key) (F : Env) :
    Prop where
  program : F.program = assetId
  cpi : F.inCpi = true
  rent : F.rent = E.rent
  pda : F.pda = E.pda
  len : ∀ k, F.origLen k = (L k).data.length
  signer : ∀ k, F.signer k = true ↔ k ∈ accts ∧ (E.signer k = true ∨ k = a)
  writable : ∀ k, F.writable k = true ↔ k ∈ accts ∧ E.writable k = true

end Verif.Spec
