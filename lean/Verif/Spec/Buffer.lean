import Verif.Spec.Layout
import Verif.Model.Program

/-!
# Accounts under construction

Before an account becomes an asset (or is used as the source of an update) its extensions are
written with Allocate and Write. Such a buffer has a zeroed header; its extensions are either
all complete, or the last one still misses some of its data.
-/

namespace Verif.Spec

open Verif

/-- There is room for a header and it is zero. -/
def Blank (d : Bytes) : Prop := 168 ≤ d.length ∧ ∀ i, i < 168 → byteAt d i = 0

/-- A buffer that stores the extensions `es`, with nothing but zeros after them. -/
def Complete (d : Bytes) (es : List Extn) : Prop :=
  Blank d ∧ ∃ e, Packed d 168 es e ∧ ∀ i, e ≤ i → byteAt d i = 0

/-- A buffer that stores the extensions `es` and the first part `p` of an extension of type `t`
that is going to have `n` bytes. -/
def Pending (d : Bytes) (es : List Extn) (t : ExtType) (n : Nat) (p : Bytes) : Prop :=
  Blank d ∧ t ≠ .none ∧ ∃ m, Packed d 168 es m ∧
    leNat (slice d m 4) = t.toU32 ∧ leNat (slice d (m + 4) 4) = n ∧
    leNat (slice d (m + 8) 4) = roundUp8 (m + 16 + n) ∧
    d.length = m + 16 + p.length ∧ slice d (m + 16) p.length = p ∧ p.length ≤ n

/-- The 16 bytes before the data of an extension placed at `off`. -/
def headOf (off : Nat) (t : ExtType) (n : Nat) : Bytes :=
  toLE 4 t.toU32 ++ toLE 4 n ++ toLE 4 (roundUp8 (off + 16 + n)) ++ List.replicate 4 0

/-- `base` followed by an extension of `n` bytes of which `p` is already there. -/
def begun (base : Bytes) (t : ExtType) (n : Nat) (p : Bytes) : Bytes :=
  base ++ headOf base.length t n ++ p

/-- `base` followed by a complete extension. -/
def finished (base : Bytes) (t : ExtType) (p : Bytes) : Bytes :=
  begun base t p.length p ++
    List.replicate (roundUp8 (base.length + 16 + p.length) - (base.length + 16 + p.length)) 0

/-- Another extension can be appended to `base`: the account has no data yet (`base` is the
zeroed header), or it is a buffer that ends with its last extension. -/
def Open (d base : Bytes) : Prop :=
  (d = [] ∧ base = List.replicate 168 0) ∨
  (d = base ∧ Blank base ∧ ∃ es, Packed base 168 es base.length)

/-- Appending chunks of data to account `k`, one Write for each; in between anything may happen
that leaves the data of the account alone. -/
inductive Appends (k : Key) : Ledger → List Bytes → Ledger → Prop
  | refl (L : Ledger) : Appends k L [] L
  | write {L L' L'' : Ledger} {c : Bytes} {cs : List Bytes} (E : Env) (accts : List Key)
      (hk : accts.head? = some k) (h : execute E L accts (.write ⟨false, c⟩) = .ok L')
      (hr : Appends k L' cs L'') : Appends k L (c :: cs) L''
  | other {L L' L'' : Ledger} {cs : List Bytes} (h : (L' k).data = (L k).data)
      (hr : Appends k L' cs L'') : Appends k L cs L''

/-- All data of the extensions `es` has been written (the padding of the last one may be
missing). -/
def AllWritten (d : Bytes) (es : List Extn) : Prop :=
  Complete d es ∨ ∃ pre t p, es = pre ++ [(t, p)] ∧ Pending d pre t p.length p

/-- The declared length fits into an account, and the data into 32 bits. -/
def Fits (x : ExtInput) : Prop :=
  x.length.toNat ≤ 10485760 ∧ ∀ p, x.data = some p → p.length < 4294967296

/-- The data given with the extension. -/
def given (x : ExtInput) : Bytes := x.data.getD []

end Verif.Spec
