import Verif.Spec.Trail
import Verif.Lemmas.Walk

/-!
# Readers on accounts with unknown extension types
-/

namespace Verif

open Spec

variable {d : Bytes} {off e : Nat} {es : List (Nat × Nat)}

theorem ofU32_unknown {n : Nat} (h : known n = false) (h0 : n ≠ 0) : ExtType.ofU32 n = none := by
  simp only [known, decide_eq_false_iff_not] at h
  have : 12 ≤ n := by omega
  obtain ⟨m, rfl⟩ := Nat.exists_eq_add_of_le this
  rw [Nat.add_comm]
  rfl

theorem ofU32_known {n : Nat} (h : known n = true) :
    ∃ t, t ≠ .none ∧ ExtType.ofU32 n = some t ∧ t.toU32 = n := by
  simp only [known, decide_eq_true_eq] at h
  obtain ⟨h1, h2⟩ := h
  have : n = 1 ∨ n = 2 ∨ n = 3 ∨ n = 4 ∨ n = 5 ∨ n = 6 ∨ n = 7 ∨ n = 8 ∨ n = 9 ∨ n = 10 ∨ n = 11 := by
    omega
  rcases this with rfl | rfl | rfl | rfl | rfl | rfl | rfl | rfl | rfl | rfl | rfl <;>
    exact ⟨_, by decide, rfl, rfl⟩

theorem ofU32_some {n : Nat} {t : ExtType} : ExtType.ofU32 n = some t ↔ n = t.toU32 := by
  constructor
  · intro h
    by_cases h0 : n = 0
    · subst h0; cases h; rfl
    · cases hk : known n with
      | false => rw [ofU32_unknown hk h0] at h; cases h
      | true =>
        obtain ⟨t', _, h1, h2⟩ := ofU32_known hk
        rw [h1] at h; cases h; exact h2.symm
  · rintro rfl
    cases t <;> rfl

theorem Spec.Trail.fuel (h : Trail d off es e) : es = [] ∨ off + es.length ≤ d.length := by
  induction h with
  | nil => exact .inl rfl
  | cons room _ _ _ hb _ ih =>
    right
    simp only [List.length_cons]
    rcases ih with rfl | ih
    · simp; omega
    · omega

theorem Spec.Trail.fuel_ok (h : Trail d off es e) : es.length < d.length + 1 := by
  rcases h.fuel with rfl | h
  · simp
  · omega

theorem extensionsFrom_trail {fuel : Nat} (h : Trail d off es e) (he : Ends d e)
    (hf : es.length < fuel) :
    extensionsFrom d fuel off = .ok (es.filterMap fun x => ExtType.ofU32 x.1) := by
  induction h generalizing fuel with
  | nil =>
    obtain ⟨f, rfl⟩ : ∃ f, fuel = f + 1 := ⟨fuel - 1, by simp at hf; omega⟩
    rw [extensionsFrom]
    rcases he.cases with hc | ⟨hc, hc2⟩
    · rw [if_neg hc]; rfl
    · rw [if_pos hc]; simp only; rw [hc2]; rfl
  | @cons off bnd e n rest room hn h0 h2 hb hr ih =>
    obtain ⟨f, rfl⟩ : ∃ f, fuel = f + 1 := ⟨fuel - 1, by simp at hf; omega⟩
    have hi := ih (fuel := f) he (by simp only [List.length_cons] at hf; omega)
    have ht : (hdrAt d off).ty = n := h0
    have hbn : (hdrAt d off).bnd = bnd := h2
    rw [extensionsFrom, if_pos (show off + extLen ≤ d.length from room)]
    simp only
    rw [ht, hbn, hi]
    cases hk : known n with
    | false => rw [List.filterMap_cons, ofU32_unknown hk hn]
    | true =>
      obtain ⟨t, h1, h3, _⟩ := ofU32_known hk
      rw [List.filterMap_cons, h3]
      cases t <;> first | exact absurd rfl h1 | rfl

theorem findFrom_trail {fuel : Nat} {t : ExtType} (h : Trail d off es e) (he : Ends d e)
    (ht : t ≠ .none) (hf : es.length < fuel) :
    findFrom t d fuel off = .ok ((es.find? fun x => x.1 = t.toU32).map (·.2)) := by
  induction h generalizing fuel with
  | nil =>
    obtain ⟨f, rfl⟩ : ∃ f, fuel = f + 1 := ⟨fuel - 1, by simp at hf; omega⟩
    rw [findFrom]
    rcases he.cases with hc | ⟨hc, hc2⟩
    · rw [if_neg hc]; rfl
    · rw [if_pos hc]
      simp only
      rw [if_neg (by rw [hc2]; intro h; cases h; exact ht rfl), if_pos hc2]
      rfl
  | @cons off bnd e n rest room hn h0 h2 hb hr ih =>
    obtain ⟨f, rfl⟩ : ∃ f, fuel = f + 1 := ⟨fuel - 1, by simp at hf; omega⟩
    have hi := ih (fuel := f) he (by simp only [List.length_cons] at hf; omega)
    have hty : (hdrAt d off).ty = n := h0
    have hbn : (hdrAt d off).bnd = bnd := h2
    rw [findFrom, if_pos (show off + extLen ≤ d.length from room)]
    simp only
    rw [hty, hbn, hi]
    by_cases hx : n = t.toU32
    · rw [if_pos (ofU32_some.mpr hx), List.find?_cons_of_pos (by simpa using hx)]; rfl
    · rw [if_neg (fun h => hx (ofU32_some.mp h)), if_neg (fun h => hn (ofU32_some.mp h)),
        List.find?_cons_of_neg (by simpa using hx)]

theorem lastFrom_trail {fuel : Nat} (h : Trail d off es e) (he : Ends d e)
    (hf : es.length < fuel) (last : Option (Hdr × Nat)) :
    lastFrom d fuel off last = .ok (((es.takeWhile fun x => known x.1).getLast?.map fun x =>
      (hdrAt d x.2, x.2 + 16)).or last) := by
  induction h generalizing fuel last with
  | nil =>
    obtain ⟨f, rfl⟩ : ∃ f, fuel = f + 1 := ⟨fuel - 1, by simp at hf; omega⟩
    rw [lastFrom]
    rcases he.cases with hc | ⟨hc, hc2⟩
    · rw [if_neg hc]; rfl
    · rw [if_pos hc]; simp only; rw [hc2]; rfl
  | @cons off bnd e n rest room hn h0 h2 hb hr ih =>
    obtain ⟨f, rfl⟩ : ∃ f, fuel = f + 1 := ⟨fuel - 1, by simp at hf; omega⟩
    have hty : (hdrAt d off).ty = n := h0
    have hbn : (hdrAt d off).bnd = bnd := h2
    rw [lastFrom, if_pos (show off + extLen ≤ d.length from room)]
    simp only
    rw [hty, hbn]
    cases hk : known n with
    | false => rw [ofU32_unknown hk hn, List.takeWhile_cons_of_neg (by simp [hk])]; rfl
    | true =>
      have hi := ih (fuel := f) he (by simp only [List.length_cons] at hf; omega)
        (some (hdrAt d off, off + extLen))
      obtain ⟨t, h1, h3, _⟩ := ofU32_known hk
      rw [h3, List.takeWhile_cons_of_pos (by simp [hk]), hi]
      have hg : ∀ xs : List (Nat × Nat), ((xs.getLast?.map fun x => (hdrAt d x.2, x.2 + 16)).or
          (some (hdrAt d off, off + extLen))) =
          ((((n, off) :: xs).getLast?.map fun x => (hdrAt d x.2, x.2 + 16)).or last) := by
        intro xs
        cases xs with
        | nil => rfl
        | cons x xs => simp [List.getLast?_cons]
      rw [hg]
      cases t <;> first | exact absurd rfl h1 | rfl

end Verif
