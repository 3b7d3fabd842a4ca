import Verif.Model.Program

/-!
# More privileges

The privileges an instruction comes with: which of its accounts sign, and which may be written.
-/

namespace Verif.Spec

open Verif

/-- `E'` is `E` with at least its write privileges on `accts` and its signatures on `T`, and with
any privileges elsewhere. -/
structure Endows (E E' : Env) (accts T : List Key) : Prop where
  program : E'.program = E.program
  rent : E'.rent = E.rent
  inCpi : E'.inCpi = E.inCpi
  pda : E'.pda = E.pda
  signs : ∀ x ∈ T, E.signer x = true → E'.signer x = true
  writes : ∀ x ∈ accts, E.writable x = true → E'.writable x = true
  lens : ∀ x ∈ accts, E'.origLen x = E.origLen x

/-- Who may have to pay: nobody can unless the system program is passed. -/
def payers (payer sys : Option Key) : List Key := if sys.isSome then payer.toList else []

/-- The accounts whose signature an instruction may ask for. -/
def askedFor (E : Env) : Instr → List Key → List Key
  | .close, buffer :: _ => [buffer]
  | .burn, _ :: signer :: _ => [signer]
  | .create _, asset :: authority :: _ :: group :: groupAuthority :: payer :: sys :: _ =>
    asset :: (payers (optAcc E payer) (optAcc E sys) ++
      if optAcc E group ≠ none then [(optAcc E groupAuthority).getD authority] else [])
  | .approve _, _ :: owner :: _ => [owner]
  | .allocate _, asset :: payer :: sys :: _ => asset :: payers (optAcc E payer) (optAcc E sys)
  | .lock, _ :: signer :: _ => [signer]
  | .revoke _, _ :: signer :: _ => [signer]
  | .transfer, _ :: signer :: _ => [signer]
  | .unlock, _ :: signer :: _ => [signer]
  | .unverify, _ :: creator :: _ => [creator]
  | .update _, _ :: authority :: _ :: _ :: payer :: sys :: _ =>
    authority :: payers (optAcc E payer) (optAcc E sys)
  | .verify, _ :: creator :: _ => [creator]
  | .write _, asset :: payer :: _ => [asset, payer]
  | .group, _ :: _ :: authority :: _ => [authority]
  | .ungroup, _ :: _ :: authority :: _ => [authority]
  | .handover, _ :: authority :: newAuthority :: _ => [authority, newAuthority]
  | .remove _, _ :: authority :: _ => [authority]
  | .resize _, _ :: authority :: payer :: sys :: _ =>
    authority :: payers (some payer) (optAcc E sys)
  | _, _ => []

/-- The first account, if it is a proxied asset of the program. -/
def askedIfProxied (E : Env) (L : Ledger) : List Key → List Key
  | [] => []
  | x :: _ => if (L x).owner = E.program ∧ (L x).data[2]? = some 3 then [x] else []

end Verif.Spec
