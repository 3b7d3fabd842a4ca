import Verif.Model.Calls

/-!
# The size of a transaction

A transaction with one instruction, as it is sent over the network (legacy format): the signatures,
the message header, the distinct accounts, a block hash and the instruction.
-/

namespace Verif.Spec

open Verif

/-- The number of different keys in a list. -/
def distinct : List Key → Nat
  | [] => 0
  | k :: ks => (if k ∈ ks then 0 else 1) + distinct ks

/-- Bytes of a length prefix: 7 bits per byte. -/
def lengthBytes (n : Nat) : Nat := if n < 128 then 1 else if n < 16384 then 2 else 3

/-- The accounts that sign. -/
def signersOf (ms : List Meta) : List Key := (ms.filter (·.signer)).map (·.key)

/-- Size in bytes of the transaction with the one instruction `x`, paid by `payer`. -/
def packetSize (program payer : Key) (x : ClientIx) : Nat :=
  let signatures := distinct (payer :: signersOf x.metas)
  let accounts := distinct (payer :: program :: x.keys)
  lengthBytes signatures + 64 * signatures + 3 + lengthBytes accounts + 32 * accounts + 32 +
    lengthBytes 1 + (1 + lengthBytes x.metas.length + x.metas.length +
      lengthBytes x.data.length + x.data.length)

/-- The largest packet that the network accepts. -/
def packetLimit : Nat := 1232

end Verif.Spec
