import Verif.Spec.Mints

/-!
# Taking somebody else's asset into a group
-/

namespace Verif.Spec

open Verif

/-- Grouping data without members, without limit and with the delegate `s`. -/
def groupOf (s : Key) : Bytes := List.replicate 16 0 ++ s.1

/-- The Create of a group whose members the delegate `s` chooses. -/
def groupInput (s : Key) : CreateInput :=
  ⟨[71], .nonFungible, true, some [⟨.grouping, 48, some (groupOf s)⟩]⟩

/-- Two calls: `s` creates the group `g` in the name of the authority `au`, and takes the asset `k`
into it. -/
def intake (k g s au : Key) : List Call :=
  [.create g (au, false) s none none (some s) (some Key.system) (groupInput s), .group k g s]

/-- After that `s` locks the group. -/
def capture (k g s au : Key) : List Call := intake k g s au ++ [.lock g s]

/-- Histories in which none of `ks` signs an instruction of the program. -/
inductive Without (program : Key) (ks : List Key) : Ledger → Ledger → Prop
  | refl (L : Ledger) : Without program ks L L
  | instr {L L' L'' : Ledger} (E : Env) (accts : List Key) (i : Instr)
      (hl : Without program ks L L') (hp : E.program = program)
      (hn : ∀ x ∈ ks, E.signer x = false) (h : execute E L' accts i = .ok L'') :
      Without program ks L L''
  | foreign {L L' L'' : Ledger} (hl : Without program ks L L') (h : Foreign program L' L'') :
      Without program ks L L''

end Verif.Spec
