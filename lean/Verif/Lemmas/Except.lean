import Verif.Model.Program

/-!
# Inversion lemmas for the error monad
-/

namespace Verif

variable {α β : Type}

theorem bind_ok {x : Except Err α} {f : α → Except Err β} {b : β} :
    (x >>= f) = .ok b ↔ ∃ a, x = .ok a ∧ f a = .ok b := by
  cases x with
  | error e => simp [bind, Except.bind]
  | ok a => simp [bind, Except.bind]

theorem pure_ok {a b : α} : (pure a : Except Err α) = .ok b ↔ a = b := by
  simp [pure, Except.pure]

theorem require_ok {c : Prop} [Decidable c] {e : Err} {u : Unit} :
    require c e = .ok u ↔ c := by
  unfold require; split <;> simp [*]

theorem error_ok {e : Err} {a : α} : (Except.error e : Except Err α) = .ok a ↔ False := by simp

theorem require_bind_ok {c : Prop} [Decidable c] {e : Err} {f : Unit → Except Err β} {b : β} :
    (require c e >>= f) = .ok b ↔ c ∧ f () = .ok b := by
  unfold require; split <;> simp [bind, Except.bind, *]

theorem ite_error_ok {c : Prop} [Decidable c] {x : Except Err α} {e : Err} {a : α} :
    (if c then .error e else x) = .ok a ↔ ¬ c ∧ x = .ok a := by
  split <;> simp [*]

theorem ite_ok_error {c : Prop} [Decidable c] {x : Except Err α} {e : Err} {a : α} :
    (if c then x else .error e) = .ok a ↔ c ∧ x = .ok a := by
  split <;> simp [*]

theorem exists_unit {P : Unit → Prop} : (∃ u, P u) ↔ P () :=
  ⟨fun ⟨⟨⟩, h⟩ => h, fun h => ⟨(), h⟩⟩

/-- Opens up a successful `do` block at a hypothesis. -/
macro "inv" : tactic =>
  `(tactic| simp only [bind_ok, require_ok, pure_ok, error_ok, exists_unit, exists_and_left,
      exists_const, false_and, and_false, exists_false])

@[inherit_doc tacticInv]
macro "inv" " at " h:ident : tactic =>
  `(tactic| simp only [bind_ok, require_ok, pure_ok, error_ok, exists_unit, exists_and_left,
      exists_const, false_and, and_false, exists_false] at $h:ident)

end Verif
