import Verif.Spec.Moves
import Verif.Spec.Constraint

/-!
# What a request needs besides the right signature

Used to say that requests of those entitled are not refused: nothing stands in their way but what
is listed here.
-/

namespace Verif.Spec

open Verif

/-- The account is not a locked asset of the program (nor a fragment of an asset that is too short
to tell). -/
def Calm (program : Key) (L : Ledger) (x : Key) : Prop :=
  (L x).owner = program → byteAt (L x).data 0 = 1 →
    2 ≤ (L x).data.length ∧ byteAt (L x).data 1 ≠ 1

/-- The account is not the fragment of an asset that is too short to have a lock state. -/
def Whole (program : Key) (L : Ledger) (x : Key) : Prop :=
  (L x).owner = program → byteAt (L x).data 0 = 1 → 2 ≤ (L x).data.length

/-- The request may write the account of the asset, and a proxied asset (standard 3) signs. -/
def Usable (E : Env) (k : Key) (A : Asset) : Prop :=
  E.writable k = true ∧ (A.standard = 3 → E.signer k = true)

/-- The data of the Manager extension, if any, has a key and roles. -/
def ManagerReadable (A : Asset) : Prop :=
  ∀ p, lookup .manager A.exts = some p → 33 ≤ p.length

/-- The account as constraints see it. -/
def targetAt (L : Ledger) (k : Key) : Target := ⟨k, (L k).owner, (L k).data.isEmpty⟩

/-- The royalties of `A`, if any, can be read, and they allow `s` to transfer the asset `k` to
`r`: at top level between two wallets always, else when the constraint holds. -/
def RoyaltiesAllow (E : Env) (L : Ledger) (k s r : Key) (A : Asset) : Prop :=
  ∀ p, lookup .royalties A.exts = some p → 8 ≤ p.length ∧
    ∃ c, parseConstraint (p.drop 8) = .ok c ∧
      ((E.inCpi = false ∧ (L s).owner = Key.system ∧ (L r).owner = Key.system) ∨
        (Scoped ⟨targetAt L k, targetAt L s, some (targetAt L r)⟩ c ∧
          Holds ⟨targetAt L k, targetAt L s, some (targetAt L r)⟩ c))

/-- If the asset is in a group and has no royalties of its own, the group `g` is given, and it is
an asset whose royalties allow the transfer. -/
def GroupAllows (E : Env) (L : Ledger) (k s r g : Key) (A : Asset) : Prop :=
  A.group ≠ Key.default → lookup .royalties A.exts = none →
    g = A.group ∧ g ≠ k ∧ g ≠ E.program ∧
      ∃ G, Stores E.program L g G ∧ RoyaltiesAllow E L k s r G

/-- `p` is the data of a group: number of members, maximum, and maybe a delegate. -/
def IsGroup (G : Asset) (p : Bytes) : Prop :=
  lookup .grouping G.exts = some p ∧ 16 ≤ p.length ∧ p.length ≤ 48

/-- `s` may add members to and take members from the group `G` with the data `p`: the authority
or the delegate in the data. -/
def MayGroup (G : Asset) (p : Bytes) (s : Key) : Prop :=
  G.authority = s ∨ (p.length = 48 ∧ keyAt p 16 ≠ Key.default ∧ keyAt p 16 = s)

end Verif.Spec
