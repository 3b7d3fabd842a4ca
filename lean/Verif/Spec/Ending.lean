import Verif.Spec.WellFormed

/-!
# Loops over the extensions of an account

The header of an extension says where the next one starts. Nothing makes it point forward.
-/

namespace Verif.Spec

open Verif

/-- Following the headers from offset `off` on, one comes to a place without a header, or to one of
type zero. -/
inductive Halts (d : Bytes) : Nat → Prop
  | stop {off : Nat} (h : Ends d off) : Halts d off
  | next {off : Nat} (h : ¬ Ends d off) (hr : Halts d (leNat (slice d (off + 8) 4))) : Halts d off

/-- Less than the 16 bytes of a header follow the last extension of the asset. -/
def Snug (L : Ledger) (k : Key) (A : Asset) : Prop := (L k).data.length < packedEnd 168 A.exts + 16

/-- What the instructions need besides being used as intended: an asset that is updated has no room for
a further header behind its extensions; an account of another program given as the group of a burned
asset has headers that end. -/
def Terminating (program : Key) (L : Ledger) (accts : List Key) : Instr → Prop
  | .update _ => ∀ k A, accts.head? = some k → Stores program L k A → Snug L k A
  | .burn => ∀ g, accts[3]? = some g → (L g).owner ≠ program → Halts (L g).data 168
  | _ => True

end Verif.Spec
