import Verif.Spec.Edits
import Verif.Spec.Calls
import Verif.Spec.Packet

/-!
# What it takes to build and create an asset
-/

namespace Verif.Spec

open Verif

/-- The account `k` is going to be an asset: it is unused, or a buffer of the program. The wallet
`p` pays; both together own `total` lamports. -/
structure Underway (program : Key) (L : Ledger) (k p : Key) (total : Nat) : Prop where
  other : p ≠ k
  wallet : (L p).owner = Key.system ∧ (L p).data = []
  funds : (L p).lamports + (L k).lamports = total
  unused : (L k).data = [] → L k = ⟨0, [], Key.system⟩
  buffer : (L k).data ≠ [] → (L k).owner = program

/-- The account and the wallet sign and may be written; the instruction starts with the account as
it is. -/
structure Serves (E : Env) (L : Ledger) (k p : Key) : Prop where
  signer : E.signer k = true ∧ E.signer p = true
  writable : E.writable k = true ∧ E.writable p = true
  fresh : E.origLen k = (L k).data.length

/-- The lamports suffice for the rent of accounts of up to `size` bytes. -/
def Affords (E : Env) (size total : Nat) : Prop :=
  total < 18446744073709551616 ∧ ∀ n, n ≤ size → E.rent n ≤ total

/-- The environment an instruction of a client runs in: those sign and are writable that the
account metas ask for. -/
def serving (E : Env) (L : Ledger) (x : ClientIx) : Env :=
  { E with
    signer := fun a => x.metas.any fun m => m.key = a && m.signer
    writable := fun a => x.metas.any fun m => m.key = a && m.writable
    origLen := fun a => (L a).data.length }

/-- Sending the instructions one after the other, each in a transaction of its own. -/
def sends (E : Env) : Ledger → List ClientIx → Except Err Ledger
  | L, [] => .ok L
  | L, x :: xs =>
    match executeBytes (serving E L x) L x.keys x.data with
    | .ok L' => sends E L' xs
    | .error e => .error e

/-- The extensions can be created by `owner`: distinct, readable and acceptable. -/
def Creatable (owner : Key) (xs : List Extn) : Prop :=
  (xs.map (·.1)).Nodup ∧ ∀ x ∈ xs, x.1 ≠ .none ∧ Readable x.1 x.2 ∧ ∃ q, Born owner x (x.1, q)

/-- The standard fits the extensions: a manager for managed assets only, a proxy for proxied
assets only, and then the address of the asset is derived from it. -/
def StandardFits (E : Env) (k : Key) (s : Standard) (xs : List Extn) : Prop :=
  (s = .managed ↔ ExtType.manager ∈ xs.map (·.1)) ∧
  (s = .proxied ↔ ExtType.proxy ∈ xs.map (·.1)) ∧
  ∀ p, lookup .proxy xs = some p → E.pda (slice p 32 32) (byteAt p 64) (keyAt p 0) = some k

end Verif.Spec
