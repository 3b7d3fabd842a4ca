import Verif.Model.Extensions

/-!
# When extension data is acceptable

What the data of an extension means, read off the bytes at fixed offsets, and when new data
may replace old data.
-/

namespace Verif.Spec

open Verif

/-! ## Groups -/

/-- The number of members according to the Grouping data. -/
def membersOf (p : Bytes) : Nat := leNat (p.take 8)

/-- The maximum number of members; zero means no limit. -/
def limitOf (p : Bytes) : Nat := leNat (slice p 8 8)

/-- The Grouping data with another number of members. -/
def withMembers (p : Bytes) (n : Nat) : Bytes := toLE 8 n ++ p.drop 8

/-! ## Creators -/

/-- The creator in record `i`: 32 bytes address, 1 byte verified flag, 1 byte share. -/
def creatorAt (p : Bytes) (i : Nat) : Creator :=
  ⟨keyAt p (34 * i), byteAt p (34 * i + 32), byteAt p (34 * i + 33)⟩

/-- All creators. -/
def creatorList (p : Bytes) : List Creator := (List.range (p.length / 34)).map (creatorAt p)

/-- The sum of all shares. -/
def sumShares (p : Bytes) : Nat := ((creatorList p).map fun c => c.share.toNat).sum

/-- The flag a creator gets when data is accepted: the flag it had before, or whether it is the
authority when it is new. -/
def flagFor (authority : Option Key) (old : List Creator) (a : Key) : UInt8 :=
  match old.find? (fun c => c.address = a) with
  | some c => c.verified
  | none => if authority = some a then 1 else 0

/-- `q` is what is stored when the authority replaces the creators `old` by `new`. -/
def CreatorsAccepted (authority : Option Key) (old : List Creator) (new q : Bytes) : Prop :=
  new.length % 34 = 0 ∧ q.length = new.length ∧
  creatorList q = (creatorList new).map
    (fun c => { c with verified := flagFor authority old c.address }) ∧
  sumShares q % 256 = 100 ∧
  ∀ o ∈ old, o.verified ≠ 0 → ∃ c ∈ creatorList q, c.address = o.address ∧ c.verified ≠ 0

/-! ## All types -/

/-- The authority may set the data of an extension of type `t` to `new`, given the data `old`
it had before; `q` is what is stored. -/
def Accepted (authority : Option Key) (t : ExtType) (old : Option Bytes) (new q : Bytes) : Prop :=
  match t with
  | .none => False
  | .creators =>
    (∀ o, old = some o → o.length % 34 = 0) ∧
    CreatorsAccepted authority ((old.map creatorList).getD []) new q
  | .grouping =>
    16 ≤ new.length ∧ new.length ≤ 48 ∧
    match old with
    | some o => 16 ≤ o.length ∧ q = withMembers new (membersOf o) ∧
        (limitOf new = 0 ∨ membersOf o ≤ limitOf new)
    | none => q = new ∧ membersOf new = 0
  | .royalties => q = new ∧ 8 ≤ new.length ∧ leNat (new.take 8) ≤ 10000
  | .manager => q = new ∧ 33 ≤ new.length ∧ ∀ o, old = some o → 33 ≤ o.length
  | .proxy => q = new ∧ new.length = 97 ∧
      ∀ o, old = some o → o.length = 97 ∧ new.take 65 = o.take 65
  | _ => q = new

end Verif.Spec
