import Verif.Spec.WellFormed

/-!
# Groups and their members
-/

namespace Verif.Spec

open Verif

/-- Account `k` is an initialised asset that references the group `g`. -/
def Member (program : Key) (L : Ledger) (g k : Key) : Prop :=
  IsAsset program L k ∧ (assetAt L k).group = g

/-- `ms` lists the members of `g`, each once. -/
def Roll (program : Key) (L : Ledger) (g : Key) (ms : List Key) : Prop :=
  ms.Nodup ∧ ∀ k, k ∈ ms ↔ Member program L g k

/-- Account `g` is an asset with the Grouping data `p`. -/
def GroupOf (program : Key) (L : Ledger) (g : Key) (p : Bytes) : Prop :=
  ∃ A, Stores program L g A ∧ lookup .grouping A.exts = some p

/-- All accounts of the program are well-formed, every group records the number of its members,
and what has members is a group. -/
def Consistent (program : Key) (L : Ledger) : Prop :=
  WellFormed program L ∧ ∀ g, g ≠ Key.default → ∃ ms, Roll program L g ms ∧
    (∀ p, GroupOf program L g p → 16 ≤ p.length ∧ membersOf p = ms.length) ∧
    (ms ≠ [] → ∃ p, GroupOf program L g p)

/-- No group has more members than its limit, if it has one. -/
def Limited (program : Key) (L : Ledger) : Prop :=
  ∀ g p, g ≠ Key.default → GroupOf program L g p → limitOf p = 0 ∨ membersOf p ≤ limitOf p

/-- One step of a history: an instruction used as intended (`Proper`) that does not blank the data
of a group, after which no group has 2^64 members or more; or whatever other programs do. -/
inductive CountedStep (program : Key) : Ledger → Ledger → Prop
  | instr {L L' : Ledger} (E : Env) (accts : List Key) (i : Instr) (hp : E.program = program)
      (hl : ∀ k, E.origLen k = (L k).data.length) (h : execute E L accts i = .ok L')
      (hi : Proper program L accts i)
      (hu : ∀ x e, i = .update x → x.extension = some e → e.ty = .grouping → e.data ≠ none)
      (hfew : ∀ g ms, Roll program L' g ms → ms.length < 18446744073709551616) :
      CountedStep program L L'
  | foreign {L L' : Ledger} (h : Foreign program L L') : CountedStep program L L'

/-- Histories. -/
inductive CountedSteps (program : Key) : Ledger → Ledger → Prop
  | refl (L : Ledger) : CountedSteps program L L
  | tail {L L' L'' : Ledger} (hs : CountedSteps program L L') (h : CountedStep program L' L'') :
      CountedSteps program L L''

end Verif.Spec
