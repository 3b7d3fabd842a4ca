import Verif.Lemmas.Constraint

/-!
# C21 — constraint evaluation follows boolean semantics
-/

namespace Verif.Props

open Verif Verif.Spec

/-- Whenever evaluation succeeds, its verdict is the truth of the formula. -/
theorem C21_verdict_is_formula (ctx : CCtx) (c : Cst) (b : Bool) (h : evalC ctx c = .ok b) :
    b = true ↔ Holds ctx c := evalC_holds ctx c b h

/-- When every account referred to is there, evaluation succeeds and decides the formula. -/
theorem C21_decides_when_scoped (ctx : CCtx) (c : Cst) (h : Scoped ctx c) :
    (evalC ctx c = .ok true ↔ Holds ctx c) ∧ (evalC ctx c = .ok false ↔ ¬ Holds ctx c) := by
  obtain ⟨b, hb⟩ := evalC_total ctx c h
  have := evalC_holds ctx c b hb
  rw [hb]
  cases b <;> simp_all

/-- An error means that the constraint refers to an account that is not there. -/
theorem C21_error_only_when_unscoped (ctx : CCtx) (c : Cst) (e : Err)
    (h : evalC ctx c = .error e) : ¬ Scoped ctx c := by
  intro hs
  obtain ⟨b, hb⟩ := evalC_total ctx c hs
  simp_all

/-- The only error of an evaluation is a missing account (a selector that is no account at
all is undefined behaviour in the code). -/
theorem C21_only_error_is_missing_account (ctx : CCtx) (c : Cst) (e : Err)
    (h : evalC ctx c = .error e) : e = .notEnoughAccountKeys ∨ e = .undef := evalC_err ctx c e h

/-! ## A concrete case -/

/-- A context with three distinct accounts, the recipient owned by `k7`. -/
def ctxEx : CCtx :=
  let k (n : UInt8) : Key := Key.ofBytes (List.replicate 32 n)
  ⟨⟨k 1, k 9, false⟩, ⟨k 2, Key.default, true⟩, some ⟨k 3, k 7, false⟩⟩

/-- "the recipient is owned by `k7` and the authority is not `k5`". -/
def cstEx : Cst :=
  let k (n : UInt8) : Key := Key.ofBytes (List.replicate 32 n)
  .and [.or [.ownedBy 2 [k 6, k 7], .pubkeyMatch 0 []], .not (.pubkeyMatch 1 [k 5]), .empty]

example : Scoped ctxEx cstEx := by
  simp [cstEx, Scoped, ctxEx, account]

example : evalC ctxEx cstEx = .ok true := by decide +kernel

example : Holds ctxEx cstEx := (C21_verdict_is_formula ctxEx cstEx true (by decide +kernel)).mp rfl

/-- Without a recipient the same constraint fails with an error. -/
example : evalC { ctxEx with recipient := none } cstEx = .error .notEnoughAccountKeys := by
  decide +kernel

end Verif.Props
