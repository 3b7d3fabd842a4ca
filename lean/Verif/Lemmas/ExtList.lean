import Verif.Spec.Layout
import Verif.Lemmas.CreateLayout

/-!
# Lists of extensions
-/

namespace Verif

open Verif.Spec

variable {s t : ExtType} {p q : Bytes} {es : List Extn}

theorem lookup_setExt_same : lookup t (setExt t p es) = some p := by
  induction es with
  | nil => simp [setExt, lookup]
  | cons x xs ih =>
    obtain ⟨t', p'⟩ := x
    unfold setExt
    split
    · simp [lookup]
    · rename_i h; simp [lookup, h, ih]

theorem lookup_setExt_ne (h : s ≠ t) : lookup s (setExt t p es) = lookup s es := by
  induction es with
  | nil => simp [setExt, lookup, Ne.symm h]
  | cons x xs ih =>
    obtain ⟨t', p'⟩ := x
    unfold setExt
    split
    · rename_i h'; subst h'; simp [lookup, Ne.symm h]
    · simp only [lookup, ih]

theorem lookup_removeExt_ne (h : s ≠ t) : lookup s (removeExt t es) = lookup s es := by
  induction es with
  | nil => rfl
  | cons x xs ih =>
    obtain ⟨t', p'⟩ := x
    unfold removeExt
    split
    · rename_i h'; subst h'; simp [lookup, Ne.symm h]
    · simp only [lookup, ih]

theorem mem_setExt {x : Extn} (h : x ∈ setExt t p es) : x = (t, p) ∨ x ∈ es := by
  induction es with
  | nil => simpa [setExt] using h
  | cons y ys ih =>
    obtain ⟨t', p'⟩ := y
    unfold setExt at h
    split at h
    · rcases List.mem_cons.mp h with h | h
      · exact Or.inl h
      · exact Or.inr (List.mem_cons_of_mem _ h)
    · rcases List.mem_cons.mp h with h | h
      · exact Or.inr (h ▸ List.mem_cons_self)
      · rcases ih h with h | h
        · exact Or.inl h
        · exact Or.inr (List.mem_cons_of_mem _ h)

theorem removeExt_sublist : (removeExt t es).Sublist es := by
  induction es with
  | nil => exact List.Sublist.refl _
  | cons y ys ih =>
    obtain ⟨t', p'⟩ := y
    unfold removeExt
    split
    · exact List.sublist_cons_self _ _
    · exact ih.cons₂ _

theorem mem_removeExt {x : Extn} (h : x ∈ removeExt t es) : x ∈ es := removeExt_sublist.subset h

theorem lookup_mem (h : lookup t es = some p) : (t, p) ∈ es := by
  induction es with
  | nil => cases h
  | cons y ys ih =>
    obtain ⟨t', p'⟩ := y
    unfold lookup at h
    split at h
    · rename_i h'; cases h; subst h'; exact List.mem_cons_self
    · exact List.mem_cons_of_mem _ (ih h)

theorem types_setExt : (setExt t p es).map (·.1) =
    if t ∈ es.map (·.1) then es.map (·.1) else es.map (·.1) ++ [t] := by
  induction es with
  | nil => simp [setExt]
  | cons y ys ih =>
    obtain ⟨t', p'⟩ := y
    unfold setExt
    by_cases h : t' = t
    · subst h; simp
    · rw [if_neg h]
      simp only [List.map_cons, ih, List.mem_cons, Ne.symm h, false_or]
      split <;> simp

theorem nodup_setExt (h : (es.map (·.1)).Nodup) : ((setExt t p es).map (·.1)).Nodup := by
  rw [types_setExt]
  split
  · exact h
  · rename_i hn
    rw [List.nodup_append]
    refine ⟨h, by simp, ?_⟩
    intro a ha b hb
    rcases List.mem_singleton.mp hb with rfl
    rintro rfl
    exact hn ha

theorem nodup_removeExt (h : (es.map (·.1)).Nodup) : ((removeExt t es).map (·.1)).Nodup :=
  h.sublist (removeExt_sublist.map _)

theorem forall2_mem_right {α β : Type} {R : α → β → Prop} {xs : List α} {ys : List β}
    (h : List.Forall₂ R xs ys) {y : β} (hy : y ∈ ys) : ∃ x ∈ xs, R x y := by
  induction h with
  | nil => cases hy
  | cons h1 _ ih =>
    rcases List.mem_cons.mp hy with rfl | hy
    · exact ⟨_, List.mem_cons_self, h1⟩
    · obtain ⟨x, hx, hr⟩ := ih hy
      exact ⟨x, List.mem_cons_of_mem _ hx, hr⟩

/-- Without duplicates, every extension is found. -/
theorem lookup_of_mem (hn : (es.map (·.1)).Nodup) (h : (t, p) ∈ es) : lookup t es = some p := by
  induction es with
  | nil => cases h
  | cons y ys ih =>
    obtain ⟨t', p'⟩ := y
    rw [List.map_cons, List.nodup_cons] at hn
    unfold lookup
    rcases List.mem_cons.mp h with h | h
    · cases h; rw [if_pos rfl]
    · rw [if_neg ?_]
      · exact ih hn.2 h
      · rintro rfl
        exact hn.1 (List.mem_map.mpr ⟨_, h, rfl⟩)

end Verif
