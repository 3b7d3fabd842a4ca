import Verif.Model.Cpi

/-!
# The proxy interface

programs/asset/interface/src/processor.rs. `E` is the environment of the program that embeds the
interface; `assetId` the constant `AssetGtQ…` of lines 45 and 119.
-/

namespace Verif

/-- `fetch_proxy_data!` — processor.rs:24-39: the Proxy extension of the account data. -/
def fetchProxy (d : Bytes) : Except Err Proxy := do
  match ← assetGet .proxy d with
  | none => .error .invalidAccountData
  | some p => readProxy p

/-- `[seeds, [bump]]` as signer seeds: the runtime derives the address from the id of the calling
program. -/
def proxySigner (E : Env) (x : Proxy) : Except Err Key :=
  match E.pda x.seeds x.bump E.program with
  | some k => .ok k
  | none => .error .invalidSeeds

/-- `log_instruction_name!` — processor.rs:57-86. -/
def knownName : Bytes → Except Err Unit
  | [] => .error .invalidInstructionData
  | t :: _ => require (t.toNat ≤ 16) .invalidInstructionData

/-- The account metas of the forwarded instruction — processor.rs:103-112. -/
def forwardMetas (E : Env) : List Key → List Meta
  | [] => []
  | a :: rest =>
    ⟨a, true, E.writable a⟩ :: rest.map fun k => ⟨k, E.signer k, E.writable k⟩

/-- `Interface::process_instruction` — processor.rs:88-124. -/
def interfaceProcess (E : Env) (assetId : Key) (L : Ledger) (accts : List Key) (data : Bytes) :
    Except Err Ledger := do
  knownName data
  match accts with
  | [] => .error .notEnoughAccountKeys
  | asset :: _ => do
    let x ← fetchProxy (L asset).data
    let signer ← proxySigner E x
    invokeAsset E assetId [signer] L (forwardMetas E accts) data

end Verif
