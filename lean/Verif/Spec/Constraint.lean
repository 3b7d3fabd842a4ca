import Verif.Model.Constraints

/-!
# What constraints mean

A constraint is a boolean formula about three accounts: the asset, the authority (the
signer of the transfer) and the recipient.
-/

namespace Verif.Spec

open Verif

/-- The account a selector refers to: 0 the asset, 1 the authority, 2 the recipient. -/
def account (ctx : CCtx) : Nat → Option Target
  | 0 => some ctx.asset
  | 1 => some ctx.authority
  | 2 => ctx.recipient
  | _ => none

/-- The boolean formula denoted by a constraint. -/
def Holds (ctx : CCtx) : Cst → Prop
  | .and cs => ∀ c ∈ cs, Holds ctx c
  | .or cs => ∃ c, ∃ _ : c ∈ cs, Holds ctx c
  | .not c => ¬ Holds ctx c
  | .ownedBy a owners => ∃ t, account ctx a = some t ∧ t.owner ∈ owners ∧ t.empty = false
  | .pubkeyMatch a keys => ∃ t, account ctx a = some t ∧ t.key ∈ keys
  | .empty => True
termination_by c => sizeOf c

/-- All accounts the constraint refers to exist. -/
def Scoped (ctx : CCtx) : Cst → Prop
  | .and cs => ∀ c ∈ cs, Scoped ctx c
  | .or cs => ∀ c ∈ cs, Scoped ctx c
  | .not c => Scoped ctx c
  | .ownedBy a _ => (account ctx a).isSome
  | .pubkeyMatch a _ => (account ctx a).isSome
  | .empty => True
termination_by c => sizeOf c

/-- Every account selector is a `u64`. -/
def SelectorsFit : Cst → Prop
  | .and cs => ∀ c ∈ cs, SelectorsFit c
  | .or cs => ∀ c ∈ cs, SelectorsFit c
  | .not c => SelectorsFit c
  | .ownedBy a _ => a < 2 ^ 64
  | .pubkeyMatch a _ => a < 2 ^ 64
  | .empty => True
termination_by c => sizeOf c

/-- The constraint contains no negation. -/
def NotFree : Cst → Prop
  | .and cs => ∀ c ∈ cs, NotFree c
  | .or cs => ∀ c ∈ cs, NotFree c
  | .not _ => False
  | .ownedBy _ _ => True
  | .pubkeyMatch _ _ => True
  | .empty => True
termination_by c => sizeOf c

end Verif.Spec
