import Verif.Lemmas.Payload
import Verif.Lemmas.Lookup
import Verif.Spec.Properties

/-!
# Lemmas on the lookup of properties
-/

namespace Verif

open Verif.Spec

/-- What is at the position of a slot. -/
def Slot.At (mem : Bytes) (s : Slot) : Prop :=
  match s.value with
  | .text _ => True
  | .number n => s.pos + 8 ≤ mem.length ∧ leNat (slice mem s.pos 8) = n
  | .boolean b => s.pos < mem.length ∧ byteAt mem s.pos = b

theorem slots_read {fuel : Nat} {b : Bytes} {l : List (Bytes × PropValue)} (o : Nat)
    (h : readProps fuel b = .ok l) :
    ∃ ss, propSlots fuel b o = .ok ss ∧ ss.map (fun p => (p.1, p.2.value)) = l := by
  induction fuel generalizing b l o with
  | zero => cases h
  | succ fuel ih =>
    rw [readProps] at h
    rw [propSlots]
    split at h
    · rename_i he
      cases h
      rw [if_pos he]
      exact ⟨[], rfl, rfl⟩
    · rename_i he
      rw [if_neg he]
      inv at h
      obtain ⟨⟨name, n⟩, h1, ⟨value, m⟩, h2, rest, h3, rfl⟩ := h
      obtain ⟨ss, h4, h5⟩ := ih (o + n + m) h3
      refine ⟨(name, ⟨value, o + n + 1⟩) :: ss, ?_, by simp [h5]⟩
      rw [h1]
      simp only [bind, Except.bind]
      rw [h2]
      simp only
      rw [h4]
      rfl

theorem readStr_size {b s : Bytes} {n : Nat} (h : readStr b = .ok (s, n)) : n ≤ b.length ∧ 1 ≤ n := by
  unfold readStr at h
  split at h
  · cases h
  · split at h
    · cases h
    · cases h
      simp only [List.length_cons]
      omega

theorem slots_at {fuel : Nat} {b mem : Bytes} {o : Nat} {ss : List (Bytes × Slot)}
    (h : propSlots fuel b o = .ok ss) (hb : slice mem o b.length = b) (hl : o + b.length ≤ mem.length) :
    ∀ p ∈ ss, p.2.At mem := by
  induction fuel generalizing b o ss with
  | zero => cases h
  | succ fuel ih =>
    rw [propSlots] at h
    split at h
    · cases h
      intro p hp
      cases hp
    · inv at h
      obtain ⟨⟨name, n⟩, h1, ⟨value, m⟩, h2, rest, h3, rfl⟩ := h
      have hn := readStr_size h1
      have hdrop : ∀ j, mem.drop (o + j) = b.drop j ++ mem.drop (o + b.length) ∨ b.length < j := by
        intro j
        by_cases hj : j ≤ b.length
        · left
          have : mem.drop o = b ++ mem.drop (o + b.length) := by
            conv_lhs => rw [← List.take_append_drop b.length (mem.drop o)]
            rw [List.drop_drop]
            congr 1
          rw [← List.drop_drop, this, List.drop_append_of_le_length hj]
        · right; omega
      have hv : Slot.At mem ⟨value, o + n + 1⟩ ∧ n + m ≤ b.length := by
        unfold readPropValue at h2
        split at h2
        · cases h2
        · rename_i ty r hr
          have hbl : b.length = n + (r.length + 1) := by
            have := congrArg List.length hr
            rw [List.length_drop, List.length_cons] at this
            omega
          have hr' : mem.drop (o + n + 1) = r ++ mem.drop (o + b.length) := by
            rcases hdrop (n + 1) with h | h
            · rw [← Nat.add_assoc] at h
              rw [h, ← List.drop_drop, hr]
              rfl
            · omega
          split at h2
          · inv at h2
            obtain ⟨⟨s, j⟩, h4, h5⟩ := h2
            cases h5
            have := readStr_size h4
            exact ⟨trivial, by omega⟩
          · split at h2
            · split at h2
              · cases h2
              · cases h2
                refine ⟨⟨show o + n + 1 + 8 ≤ _ by omega, ?_⟩, by omega⟩
                show leNat (slice mem (o + n + 1) 8) = _
                unfold slice
                rw [hr', List.take_append_of_le_length (by omega)]
            · split at h2
              · split at h2
                · cases h2
                · rename_i x r'
                  cases h2
                  rw [List.length_cons] at hbl
                  refine ⟨⟨show o + n + 1 < _ by omega, ?_⟩, by omega⟩
                  show byteAt mem (o + n + 1) = x
                  have : (mem.drop (o + n + 1))[0]? = some x := by rw [hr']; rfl
                  rw [List.getElem?_drop] at this
                  unfold byteAt
                  rw [List.getD_eq_getElem?_getD]
                  rw [Nat.add_zero] at this
                  rw [this]
                  rfl
              · cases h2
      intro p hp
      rcases List.mem_cons.mp hp with rfl | hp
      · exact hv.1
      · refine ih h3 ?_ ?_ p hp
        · show slice mem (o + n + m) (b.drop (n + m)).length = b.drop (n + m)
          rcases hdrop (n + m) with h | h
          · unfold slice
            rw [Nat.add_assoc, h, List.take_left' rfl]
          · omega
        · show o + n + m + (b.drop (n + m)).length ≤ _
          rw [List.length_drop]; omega

end Verif
