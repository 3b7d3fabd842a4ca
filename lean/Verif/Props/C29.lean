import Verif.Lemmas.Effect
import Verif.Examples

/-!
# C29 — instructions do not touch unrelated accounts
-/

namespace Verif.Spec

open Verif

/-- The account positions an instruction may write to: the asset (or buffer being filled),
for Burn and Create the group in fourth place, for Group and Ungroup the group in second
place, for Update the buffer in third place. -/
def writablePositions : Instr → List Nat
  | .burn => [0, 3]
  | .create _ => [0, 3]
  | .group => [0, 1]
  | .ungroup => [0, 1]
  | .update _ => [0, 2]
  | _ => [0]

end Verif.Spec

namespace Verif.Props

open Verif Verif.Spec

/-- An account that is not passed to the instruction does not change at all. -/
theorem C29_not_passed {E : Env} {L L' : Ledger} {accts : List Key} {i : Instr}
    (h : execute E L accts i = .ok L') (x : Key) (hx : x ∉ accts) : L' x = L x := by
  obtain ⟨k, rest, rfl, e⟩ := execute_effect h
  refine e.other x (fun hd => hx ?_) hx
  unfold dataKeys at hd
  obtain ⟨p, _, hp⟩ := List.mem_filterMap.mp hd
  exact List.mem_of_getElem? hp

/-- Data changes only in the asset, group and buffer positions. -/
theorem C29_data_positions {E : Env} {L L' : Ledger} {accts : List Key} {i : Instr}
    (h : execute E L accts i = .ok L') (x : Key) (hx : (L' x).data ≠ (L x).data) :
    ∃ p ∈ writablePositions i, accts[p]? = some x := by
  obtain ⟨k, rest, rfl, e⟩ := execute_effect h
  by_cases hd : x ∈ dataKeys i (k :: rest)
  · unfold dataKeys at hd
    obtain ⟨p, hp, hp'⟩ := List.mem_filterMap.mp hd
    exact ⟨p, by cases i <;> exact hp, hp'⟩
  · exact absurd (e.data x hd).1 hx

/-- Accounts of other programs keep their data and their owner; the exception is an empty
system account that signed, which can become an account of the program. -/
theorem C29_other_programs {E : Env} {L L' : Ledger} {accts : List Key} {i : Instr}
    (h : execute E L accts i = .ok L') (x : Key)
    (hx : (L' x).data ≠ (L x).data ∨ (L' x).owner ≠ (L x).owner) :
    (L x).owner = E.program ∨
      ((L x).owner = Key.system ∧ (L x).data = [] ∧ E.signer x = true) := by
  have hmem : x ∈ accts := by
    by_cases hm : x ∈ accts
    · exact hm
    · have := C29_not_passed h x hm
      rw [this] at hx
      simp at hx
  have hall := (execute_ok h).2.2.2 x hmem
  unfold changeAllowed at hall
  simp only [Bool.or_eq_true, Bool.and_eq_true, decide_eq_true_eq] at hall
  rcases hall with hall | ⟨⟨_, _⟩, (hall | hall) | hall⟩
  · rw [hall] at hx; simp at hx
  · exact Or.inl hall
  · exact Or.inr ⟨hall.1.1, hall.2, hall.1.2⟩
  · rcases hx with hx | hx
    · exact absurd hall.1 hx
    · exact absurd hall.2.1 hx

/-- An account that changes was passed as writable. -/
theorem C29_writable {E : Env} {L L' : Ledger} {accts : List Key} {i : Instr}
    (h : execute E L accts i = .ok L') (x : Key) (hx : L' x ≠ L x) : E.writable x = true := by
  have hmem : x ∈ accts := by
    by_cases hm : x ∈ accts
    · exact hm
    · exact absurd (C29_not_passed h x hm) hx
  have hall := (execute_ok h).2.2.2 x hmem
  unfold changeAllowed at hall
  simp only [Bool.or_eq_true, Bool.and_eq_true, decide_eq_true_eq] at hall
  rcases hall with hall | ⟨⟨hw, _⟩, _⟩
  · exact absurd hall hx
  · exact hw

/-- Only the first account changes its owner. -/
theorem C29_owner {E : Env} {L L' : Ledger} {accts : List Key} {i : Instr}
    (h : execute E L accts i = .ok L') (x : Key) (hx : (L' x).owner ≠ (L x).owner) :
    accts.head? = some x := by
  obtain ⟨k, rest, rfl, e⟩ := execute_effect h
  by_cases hk : x = k
  · subst hk; rfl
  · exact absurd (e.newOwner x hk) hx

/-! ## Concrete case: a group instruction writes both accounts, and nothing else -/

def two : Ledger :=
  Ex.ledger [
    (Ex.k 1, Ex.owned (Ex.header 0 0 1 (Ex.k 2) Key.default (Ex.k 3) Key.default 0 [65])),
    (Ex.k 7, Ex.owned (Ex.header 0 0 1 (Ex.k 2) Key.default (Ex.k 3) Key.default 0 [71] ++
      Ex.blocks 168 [(.grouping, toLE 8 3 ++ toLE 8 0 ++ Key.default.1)]))]

example :
    Ex.after (Ex.run two [Ex.k 3] [Ex.k 1, Ex.k 7, Ex.k 3] .group) (Ex.k 1) ≠ .ok (two (Ex.k 1)) ∧
    Ex.after (Ex.run two [Ex.k 3] [Ex.k 1, Ex.k 7, Ex.k 3] .group) (Ex.k 7) ≠ .ok (two (Ex.k 7)) ∧
    Ex.after (Ex.run two [Ex.k 3] [Ex.k 1, Ex.k 7, Ex.k 3] .group) (Ex.k 3) = .ok (two (Ex.k 3)) := by
  decide +kernel

end Verif.Props
