import Verif.Spec.Aligned
import Verif.Lemmas.Constraint
import Verif.Lemmas.Walk

/-!
# Views of data as the builders make it
-/

namespace Verif

open Spec

theorem alignedAt_iff (a : Nat) (vs : List View) : alignedAt a vs = true ↔ Aligned a vs := by
  unfold alignedAt Aligned
  simp only [List.all_eq_true, decide_eq_true_eq]
  constructor <;> intro h v hv
  · exact Nat.dvd_of_mod_eq_zero (h v hv)
  · exact Nat.mod_eq_zero_of_dvd (h v hv)

/-- At a multiple of 8, for a type of alignment 4 or 8. -/
def At8 (v : View) : Prop := v.1 % 8 = 0 ∧ (v.2 = 4 ∨ v.2 = 8)

theorem At8.dvd {v : View} (h : At8 v) {a : Nat} (ha : 8 ∣ a) : v.2 ∣ a + v.1 := by
  obtain ⟨h1, h2⟩ := h
  rcases h2 with h2 | h2 <;> rw [h2] <;> omega

theorem viewsC_op (fuel o ty : Nat) (body rest : Bytes) (hty : ty ≤ 5) (hb : body.length < 2 ^ 32) :
    viewsC (fuel + 1) o (opBytes ty body ++ rest) = (o, 4) ::
      (if ty = 0 ∨ ty = 2 then viewsL fuel (o + 8) body
      else if ty = 1 then viewsC fuel (o + 8) body
      else if ty = 3 ∨ ty = 4 then [(o + 8, 8)]
      else []) := by
  rw [viewsC]
  have h0 : u32At (opBytes ty body ++ rest) 0 = ty := by
    unfold u32At opBytes
    rw [List.append_assoc, List.append_assoc,
      slice_append_left _ _ _ (length_toLE 4 ty).symm, leNat_toLE_of_lt (by omega)]
  have h4 : u32At (opBytes ty body ++ rest) 4 = body.length := by
    unfold u32At opBytes
    rw [List.append_assoc, List.append_assoc, slice_append_right _ _ _ _ (length_toLE 4 ty).symm,
      List.take_left' (length_toLE 4 _), leNat_toLE_of_lt (by omega)]
  have hbody : ((opBytes ty body ++ rest).drop 8).take body.length = body := by
    unfold opBytes
    rw [List.append_assoc, List.drop_left' (by simp [length_toLE]), List.take_left' rfl]
  simp only [h0, h4, hbody]

theorem buildC_size (c : Cst) (hl : (buildC c).length ≤ 2 ^ 32) (rest : Bytes) :
    8 + u32At (buildC c ++ rest) 4 = (buildC c).length := by
  have key : ∀ ty body, (opBytes ty body).length ≤ 2 ^ 32 →
      8 + u32At (opBytes ty body ++ rest) 4 = (opBytes ty body).length := by
    intro ty body h
    rw [length_opBytes] at h ⊢
    unfold u32At opBytes
    rw [List.append_assoc, List.append_assoc, slice_append_right _ _ _ _ (length_toLE 4 ty).symm,
      List.take_left' (length_toLE 4 _), leNat_toLE_of_lt (by omega)]
  cases c
  · rw [buildC_and] at *; exact key _ _ hl
  · rw [buildC_not] at *; exact key _ _ hl
  · rw [buildC_or] at *; exact key _ _ hl
  · rw [buildC_ownedBy] at *; exact key _ _ hl
  · rw [buildC_pubkeyMatch] at *; exact key _ _ hl
  · rw [buildC_empty] at *; exact key _ _ hl

mutual
theorem length_buildC_mod (c : Cst) : (buildC c).length % 8 = 0 := by
  match c with
  | .and cs => rw [buildC_and, length_opBytes]; have := length_flatMap_mod cs; omega
  | .or cs => rw [buildC_or, length_opBytes]; have := length_flatMap_mod cs; omega
  | .not c => rw [buildC_not, length_opBytes]; have := length_buildC_mod c; omega
  | .ownedBy a ks =>
    rw [buildC_ownedBy, length_opBytes, keyBody, List.length_append, length_toLE, length_flatMap_keys]
    omega
  | .pubkeyMatch a ks =>
    rw [buildC_pubkeyMatch, length_opBytes, keyBody, List.length_append, length_toLE, length_flatMap_keys]
    omega
  | .empty => rw [buildC_empty, length_opBytes]; rfl

theorem length_flatMap_mod (cs : List Cst) : (cs.flatMap buildC).length % 8 = 0 := by
  match cs with
  | [] => rfl
  | c :: cs =>
    rw [List.flatMap_cons, List.length_append]
    have := length_buildC_mod c
    have := length_flatMap_mod cs
    omega
end

mutual
theorem viewsC_build (c : Cst) (fuel o : Nat) (rest : Bytes) (hl : (buildC c).length ≤ 2 ^ 32)
    (ho : o % 8 = 0) : ∀ v ∈ viewsC fuel o (buildC c ++ rest), At8 v := by
  intro v hv
  have h8 := length_buildC_ge c
  rcases fuel with _ | n
  · rw [viewsC] at hv; cases hv
  have top : At8 (o, 4) := ⟨ho, .inl rfl⟩
  match c with
  | .and cs =>
    rw [buildC_and] at *
    rw [length_opBytes] at hl
    rw [viewsC_op _ _ _ _ _ (by omega) (by omega)] at hv
    simp only [true_or, if_true] at hv
    rcases List.mem_cons.mp hv with rfl | hv
    · exact top
    · exact viewsL_build cs n (o + 8) (by omega) (by omega) v hv
  | .or cs =>
    rw [buildC_or] at *
    rw [length_opBytes] at hl
    rw [viewsC_op _ _ _ _ _ (by omega) (by omega)] at hv
    simp only [or_true, if_true] at hv
    rcases List.mem_cons.mp hv with rfl | hv
    · exact top
    · exact viewsL_build cs n (o + 8) (by omega) (by omega) v hv
  | .not c =>
    rw [buildC_not] at *
    rw [length_opBytes] at hl
    rw [viewsC_op _ _ _ _ _ (by omega) (by omega)] at hv
    simp only [Nat.reduceEqDiff, or_self, if_false, if_true] at hv
    rcases List.mem_cons.mp hv with rfl | hv
    · exact top
    · exact viewsC_build c n (o + 8) [] (by omega) (by omega) v (by rwa [List.append_nil])
  | .ownedBy a ks =>
    rw [buildC_ownedBy] at *
    rw [length_opBytes] at hl
    rw [viewsC_op _ _ _ _ _ (by omega) (by omega)] at hv
    simp only [Nat.reduceEqDiff, or_self, if_false, true_or, if_true] at hv
    rcases List.mem_cons.mp hv with rfl | hv
    · exact top
    · rcases List.mem_singleton.mp hv with rfl
      exact ⟨by simp only; omega, .inr rfl⟩
  | .pubkeyMatch a ks =>
    rw [buildC_pubkeyMatch] at *
    rw [length_opBytes] at hl
    rw [viewsC_op _ _ _ _ _ (by omega) (by omega)] at hv
    simp only [Nat.reduceEqDiff, or_self, if_false, or_true, if_true] at hv
    rcases List.mem_cons.mp hv with rfl | hv
    · exact top
    · rcases List.mem_singleton.mp hv with rfl
      exact ⟨by simp only; omega, .inr rfl⟩
  | .empty =>
    rw [buildC_empty] at *
    rw [viewsC_op _ _ _ _ _ (by omega) (by simp)] at hv
    simp only [Nat.reduceEqDiff, or_self, if_false] at hv
    rcases List.mem_singleton.mp hv with rfl
    exact top

theorem viewsL_build (cs : List Cst) (fuel o : Nat) (hl : (cs.flatMap buildC).length ≤ 2 ^ 32)
    (ho : o % 8 = 0) : ∀ v ∈ viewsL fuel o (cs.flatMap buildC), At8 v := by
  intro v hv
  rcases fuel with _ | n
  · rw [viewsL] at hv; cases hv
  match cs with
  | [] => rw [viewsL] at hv; simp at hv
  | c :: cs =>
    have h8 := length_buildC_ge c
    have hm := length_buildC_mod c
    simp only [List.flatMap_cons, List.length_append] at hl hv
    rw [viewsL, if_neg (by
      simp only [List.isEmpty_iff]; intro h
      have := congrArg List.length h
      rw [List.length_append, List.length_nil] at this; omega)] at hv
    rw [buildC_size c (by omega), List.drop_left' rfl] at hv
    rcases List.mem_append.mp hv with hv | hv
    · exact viewsC_build c n o _ (by omega) ho v hv
    · exact viewsL_build cs n _ (by omega) (by omega) v hv
end

/-- All views of data as the builders make it are at multiples of 8. -/
theorem views_regular {t : ExtType} {p : Bytes} (h : Regular t p) : ∀ v ∈ views t p, At8 v := by
  intro v hv
  unfold views at hv
  split at hv
  · simp only [List.mem_cons, List.not_mem_nil, or_false] at hv
    rcases hv with rfl | rfl <;> exact ⟨rfl, .inr rfl⟩
  · obtain ⟨bp, c, hl, rfl⟩ := h.2 rfl
    rcases List.mem_cons.mp hv with rfl | hv
    · exact ⟨rfl, .inr rfl⟩
    · have hd : (royaltiesBuilderSet bp (buildC c)).drop 8 = buildC c := by
        unfold royaltiesBuilderSet; exact List.drop_left' (length_toLE 8 bp)
      rw [hd] at hv
      exact viewsC_build c _ 8 [] hl rfl v (by rwa [List.append_nil])
  · cases hv

theorem regular_length {p : Bytes} {t : ExtType} (h : Regular t p) (hn : Numeric t) : p ≠ [] := by
  rintro rfl
  rcases hn with rfl | rfl
  · exact absurd (h.1 rfl) (by simp)
  · obtain ⟨bp, c, _, he⟩ := h.2 rfl
    have := congrArg List.length he
    rw [royaltiesBuilderSet, List.length_append, length_toLE, List.length_nil] at this
    omega

theorem views_plain {t : ExtType} (p : Bytes) (h : ¬ Numeric t) : views t p = [] := by
  unfold views
  split
  · exact absurd (.inl rfl) h
  · exact absurd (.inr rfl) h
  · rfl

/-- Data with numbers has to begin at a multiple of 8, and that is enough. -/
theorem aligned_iff {t : ExtType} {p : Bytes} (a : Nat) (h : Regular t p) (hn : Numeric t) :
    Aligned a (views t p) ↔ 8 ∣ a := by
  constructor
  · intro ha
    have hm : ((0, 8) : View) ∈ views t p := by
      rcases hn with rfl | rfl <;> unfold views <;> simp
    exact ha _ hm
  · intro ha v hv
    exact (views_regular h v hv).dvd ha

theorem inlineAddr_eq (x : UpdateInput) (p : Bytes) (hp : p ≠ [])
    (hs : nameLength x + p.length ≤ 32768) :
    inlineAddr x p = heapTop - (nameLength x + p.length) := by
  unfold inlineAddr vecAlloc nameLength heapTop at *
  have h0 : p.length ≠ 0 := fun h => hp (List.length_eq_zero_iff.mp h)
  rw [if_neg h0]
  split <;> simp only <;> omega

/-- The offsets of packed extensions are multiples of 8. -/
theorem packed_mod {d : Bytes} {o e : Nat} {es : List Extn} (h : Packed d o es e) (ho : o % 8 = 0) :
    e % 8 = 0 := by
  induction h with
  | nil => exact ho
  | cons _ _ _ _ _ _ ih => exact ih (by unfold roundUp8; omega)

end Verif
