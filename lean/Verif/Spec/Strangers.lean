import Verif.Spec.Moves

/-!
# Strangers
-/

namespace Verif.Spec

open Verif

/-- Those who have a say in an asset: its owner, its authority, its delegate, its manager and its
creators. -/
def Asset.Entitled (A : Asset) (x : Key) : Prop :=
  x = A.owner ∨ x = A.authority ∨ (A.delegate ≠ Key.default ∧ x = A.delegate) ∨
    (∃ m, A.manager = some m ∧ x = m.address) ∨
    ∃ p j, lookup .creators A.exts = some p ∧ j * 34 + 34 ≤ p.length ∧ slice p (j * 34) 32 = x.1

/-- None of them signs. -/
def Outside (E : Env) (A : Asset) : Prop := ∀ x, A.Entitled x → E.signer x = false

/-- Histories in which none of those signs who have a say in `A`: instructions on any accounts, and
whatever other programs do. -/
inductive Strangers (program : Key) (A : Asset) : Ledger → Ledger → Prop
  | refl (L : Ledger) : Strangers program A L L
  | instr {L L' L'' : Ledger} (E : Env) (accts : List Key) (i : Instr)
      (hl : Strangers program A L L') (hp : E.program = program)
      (h : execute E L' accts i = .ok L'') (ho : Outside E A) : Strangers program A L L''
  | foreign {L L' L'' : Ledger} (hl : Strangers program A L L') (h : Foreign program L' L'') :
      Strangers program A L L''

/-- The same extensions, up to the number of members if the asset is a group. -/
def SameExts (es es' : List Extn) : Prop :=
  es' = es ∨ ∃ p n, lookup .grouping es = some p ∧ 16 ≤ p.length ∧
    es' = setExt .grouping (withMembers p n) es

/-- The same asset, up to the group it belongs to and, if it is a group itself, the number of its
members. -/
def SameAsset (A A' : Asset) : Prop :=
  ∃ g es, A' = { A with group := g, exts := es } ∧ SameExts A.exts es

/-- Histories of account `k` in which neither its owner of the time signs nor a delegate with the role
of transferring; leaving out what the program gets wrong (`Sound`) and burning. -/
inductive Unheld (program k : Key) : Ledger → Ledger → Prop
  | refl (L : Ledger) : Unheld program k L L
  | instr {L L' L'' : Ledger} (E : Env) (accts : List Key) (i : Instr)
      (hl : Unheld program k L L') (hp : E.program = program)
      (h : execute E L' accts i = .ok L'') (hb : ¬ (i = .burn ∧ accts.head? = some k))
      (hs : ∀ A, Stores program L' k A → Sound k A accts i ∧ E.signer A.owner = false ∧
        ∀ s, A.Delegated s .transfer → E.signer s = false) : Unheld program k L L''
  | foreign {L L' L'' : Ledger} (hl : Unheld program k L L') (h : Foreign program L' L'') :
      Unheld program k L L''

end Verif.Spec
