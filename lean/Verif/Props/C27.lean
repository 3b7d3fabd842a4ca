import Verif.Lemmas.Loss
import Verif.Examples

/-!
# C27 — lamports are conserved
-/

namespace Verif.Spec

open Verif

/-- Sum of the lamports of the listed accounts. -/
def sumLamports (L : Ledger) : List Key → Nat
  | [] => 0
  | x :: xs => (L x).lamports + sumLamports L xs

end Verif.Spec

namespace Verif.Props

open Verif Verif.Spec

theorem sumLamports_eq (L : Ledger) (ks : List Key) : sumLamports L ks = total ks L := by
  induction ks with
  | nil => rfl
  | cons x xs ih => simp only [sumLamports, total, List.map_cons, List.sum_cons]; rw [ih]; rfl

/-- The lamports of the accounts of an instruction (each counted once, possibly together with
other accounts) add up to the same total before and after. Lamports are `u64`s whose total
fits 64 bits. -/
theorem C27_conserved {E : Env} {L L' : Ledger} {accts : List Key} {i : Instr}
    (h : execute E L accts i = .ok L') (ks : List Key) (hn : ks.Nodup)
    (hks : ∀ x ∈ accts, x ∈ ks) (ht : sumLamports L ks < 2 ^ 64) :
    sumLamports L' ks = sumLamports L ks := by
  rw [sumLamports_eq] at ht
  rw [sumLamports_eq, sumLamports_eq]
  obtain ⟨k, rest, rfl, e⟩ := execute_effect h
  refine e.conserve ks hn (fun x hx => ?_) hks ht
  unfold dataKeys at hx
  obtain ⟨p, _, hp⟩ := List.mem_filterMap.mp hx
  exact hks x (List.mem_of_getElem? hp)

/-- An account loses lamports only if it is a system account that signed (the payer), or it is
the asset account of the instruction, owned by the program, and either it signed (an
unfinished buffer or a new asset), or it is burned, or its data shrank. -/
theorem C27_who_pays {E : Env} {L L' : Ledger} {accts : List Key} {i : Instr}
    (h : execute E L accts i = .ok L') (hsys : E.program ≠ Key.system) (ks : List Key)
    (hn : ks.Nodup) (hks : ∀ x ∈ accts, x ∈ ks) (ht : sumLamports L ks < 2 ^ 64) (x : Key)
    (hl : (L' x).lamports < (L x).lamports) :
    (E.signer x = true ∧ (L x).owner = Key.system) ∨
    (accts.head? = some x ∧ (L x).owner = E.program ∧
      (E.signer x = true ∨ i = .burn ∨ (L' x).data.length < (L x).data.length)) := by
  rw [sumLamports_eq] at ht
  obtain ⟨k, rest, rfl, e⟩ := execute_effect h
  by_cases hx : x = k
  · subst hx
    obtain ⟨h1, h2⟩ := execute_loss h hsys rfl hl
    exact Or.inr ⟨rfl, h2, h1⟩
  · left
    refine e.loss ks hn (fun y hy => ?_) hks ht x hx hl
    unfold dataKeys at hy
    obtain ⟨p, _, hp⟩ := List.mem_filterMap.mp hy
    exact hks y (List.mem_of_getElem? hp)

/-! ## Concrete cases -/

/-- Extending an asset by 100 bytes: rent is 128 plus the size here, so the payer `k 3` tops up
nothing while the asset is rich, and exactly the difference when it is poor. -/
def poor : Ledger :=
  Ex.ledger [(Ex.k 1, ⟨296, Ex.header 0 0 1 (Ex.k 2) Key.default (Ex.k 3) Key.default 0 [65], Ex.prog⟩),
    (Ex.k 3, Ex.wallet)]

example :
    (Ex.after (Ex.run poor [Ex.k 3] [Ex.k 1, Ex.k 3, Ex.k 3, Key.system] (.resize (.extend 100)))
      (Ex.k 1)).map (·.lamports) = .ok 396 ∧
    (Ex.after (Ex.run poor [Ex.k 3] [Ex.k 1, Ex.k 3, Ex.k 3, Key.system] (.resize (.extend 100)))
      (Ex.k 3)).map (·.lamports) = .ok 4999900 := by
  decide +kernel

end Verif.Props
