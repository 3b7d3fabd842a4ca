import Verif.Spec.Accepts

/-!
# What an edit of an asset needs

Changing the size of an account costs or returns rent, and there are limits of the runtime.
-/

namespace Verif.Spec

open Verif

/-- `p` can take the lamports that are no longer needed by the account `k`. -/
def Collects (E : Env) (L : Ledger) (k p : Key) : Prop :=
  p ≠ k ∧ E.writable p = true ∧ (L p).data.length ≤ 10485760 ∧
    (L p).lamports + (L k).lamports < 18446744073709551616

/-- The account `k` can get `size` bytes. When it shrinks, somebody takes what is left of the rent;
when it grows, it does so by at most 10 KiB, to at most 10 MiB, and its rent is already there or
paid for by a wallet. -/
def Room (E : Env) (L : Ledger) (k : Key) (size : Nat) (payer sys : Option Key) : Prop :=
  if size < (L k).data.length then
    ∃ p, payer = some p ∧ Collects E L k p
  else
    size ≤ (L k).data.length + 10240 ∧ size ≤ 10485760 ∧
    (E.rent size ≤ (L k).lamports ∨
      ∃ p, payer = some p ∧ sys = some Key.system ∧ p ≠ k ∧ E.signer p = true ∧
        E.writable p = true ∧ (L p).owner = Key.system ∧ (L p).data = [] ∧
        E.rent size ≤ (L p).lamports + (L k).lamports ∧ E.rent size < 18446744073709551616)

/-- The instruction starts with the account as it is. -/
def Fresh (E : Env) (L : Ledger) (k : Key) : Prop := E.origLen k = (L k).data.length

/-- No byte is stored after the last extension. -/
def Tight (L : Ledger) (k : Key) (A : Asset) : Prop :=
  (L k).data.length = packedEnd 168 A.exts

/-- The data of an extension takes up another number of words of 8 bytes than before. -/
def OtherSize (old : Bytes) (n : Nat) : Prop := (old.length + 7) / 8 ≠ (n + 7) / 8

/-- Bytes after the last extension do not stand in the way of an extension of type `t` with
`n` bytes: there are none, or the extension exists and changes its size, or it does not exist and
its header fits. -/
def Unobstructed (L : Ledger) (k : Key) (A : Asset) (t : ExtType) (n : Nat) : Prop :=
  Tight L k A ∨
  match lookup t A.exts with
  | some old => OtherSize old n
  | none => packedEnd 168 A.exts + 16 ≤ (L k).data.length

/-- If the number of words changes, there is room for the new extensions. -/
def RoomFor (E : Env) (L : Ledger) (k : Key) (A : Asset) (t : ExtType) (p : Bytes)
    (payer sys : Option Key) : Prop :=
  (∀ old, lookup t A.exts = some old → OtherSize old p.length) →
    Room E L k (packedEnd 168 (setExt t p A.exts)) payer sys

/-- The header of the extension `t` is followed by at least one byte. -/
def Followed (L : Ledger) (k : Key) (A : Asset) (t : ExtType) : Prop :=
  ¬ Tight L k A ∨ (A.exts.map (·.1)).getLast? ≠ some t ∨ lookup t A.exts ≠ some []

end Verif.Spec
