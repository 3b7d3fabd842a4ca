import Verif.Lemmas.Except
import Verif.Lemmas.Payload

/-!
# The lifecycle hooks
-/

namespace Verif

theorem mapLife_ok {α : Type} {r : Except Err α} {a : α} : mapLife r = .ok a ↔ r = .ok a := by
  unfold mapLife
  split <;> simp

theorem length_creatorsBytes_map (cs : List Creator) (f : Creator → Creator) :
    (creatorsBytes (cs.map f)).length = (creatorsBytes cs).length := by
  rw [length_creatorsBytes, length_creatorsBytes, List.length_map]

/-- The creators after `on_create`. -/
theorem creatorsOnCreate_ok {cs cs' : List Creator} {au : Option Key} :
    creatorsOnCreate cs au = .ok cs' ↔
      cs' = cs.map (fun c => { c with verified := initialVerified au c }) ∧
      shareTotal cs' = 100 := by
  unfold creatorsOnCreate
  simp only
  split
  · rename_i h
    simp only [reduceCtorEq, false_iff, not_and]
    rintro rfl; exact h
  · rename_i h
    simp only [Except.ok.injEq]
    constructor
    · rintro rfl; exact ⟨rfl, not_not.mp h⟩
    · rintro ⟨rfl, _⟩; rfl

/-- The creators after `on_update`. -/
theorem creatorsOnUpdate_ok {old new cs' : List Creator} {au : Option Key} :
    creatorsOnUpdate old new au = .ok cs' ↔
      cs' = new.map (fun c => { c with verified := match creatorsGet old c.address with
        | some o => o.verified
        | none => initialVerified au c }) ∧
      shareTotal cs' = 100 ∧ creatorsKeepVerified old cs' = .ok () := by
  unfold creatorsOnUpdate
  simp only
  split
  · rename_i h
    simp only [reduceCtorEq, false_iff, not_and]
    rintro rfl h'; exact absurd h' h
  · rename_i h
    inv
    constructor
    · rintro ⟨h1, rfl⟩; exact ⟨rfl, not_not.mp h, h1⟩
    · rintro ⟨rfl, h1, h2⟩; exact ⟨h2, rfl⟩

theorem onCreate_other {t : ExtType} {b v : Bytes} {au : Option Key} (ht : t ≠ .creators)
    (h : onCreate t b au = .ok v) : v = b := by
  cases t <;> simp only [onCreate] at h <;> try (first | (inv at h; obtain ⟨_, _, h⟩ := h; exact h.symm) | (cases h; rfl) | exact absurd rfl ht)
  · unfold groupingOnCreate at h
    inv at h
    obtain ⟨g, _, h⟩ := h
    split at h
    · cases h
    · exact (pure_ok.mp h).symm
  · unfold royaltiesCheck at h
    inv at h
    obtain ⟨g, _, h⟩ := h
    split at h
    · cases h
    · exact (pure_ok.mp h).symm

theorem onUpdate_other {t : ExtType} {old b v : Bytes} {au : Option Key} (ht : t ≠ .creators)
    (hg : t ≠ .grouping) (h : onUpdate t old b au = .ok v) : v = b := by
  cases t <;> simp only [onUpdate] at h <;> try (first | (inv at h; obtain ⟨_, _, _, _, h⟩ := h; exact h.symm) | (cases h; rfl) | exact absurd rfl ht | exact absurd rfl hg)
  · unfold royaltiesCheck at h
    inv at h
    obtain ⟨_, _, g, _, h⟩ := h
    split at h
    · cases h
    · exact (pure_ok.mp h).symm
  · unfold proxyOnUpdate at h
    inv at h
    obtain ⟨_, _, g, _, h⟩ := h
    split at h
    · cases h
    · exact (pure_ok.mp h).symm

theorem onCreate_creators {b v : Bytes} {au : Option Key} (h : onCreate .creators b au = .ok v) :
    ∃ cs, b = creatorsBytes cs ∧
      v = creatorsBytes (cs.map fun c => { c with verified := initialVerified au c }) ∧
      shareTotal cs = 100 := by
  simp only [onCreate] at h
  inv at h
  obtain ⟨cs, h1, cs', h2, rfl⟩ := h
  rw [readCreators_eq] at h1
  obtain ⟨rfl, h3⟩ := creatorsOnCreate_ok.mp h2
  refine ⟨cs, h1, rfl, ?_⟩
  rw [← h3]
  unfold shareTotal
  rw [List.foldl_map]

theorem onUpdate_creators {old b v : Bytes} {au : Option Key}
    (h : onUpdate .creators old b au = .ok v) :
    ∃ os cs, old = creatorsBytes os ∧ b = creatorsBytes cs ∧
      v = creatorsBytes (cs.map fun c => { c with verified := match creatorsGet os c.address with
        | some o => o.verified
        | none => initialVerified au c }) ∧
      shareTotal cs = 100 ∧
      creatorsKeepVerified os (cs.map fun c =>
        { c with verified := match creatorsGet os c.address with
          | some o => o.verified
          | none => initialVerified au c }) = .ok () := by
  simp only [onUpdate] at h
  inv at h
  obtain ⟨os, h0, cs, h1, cs', h2, rfl⟩ := h
  rw [readCreators_eq] at h0 h1
  obtain ⟨rfl, h3, h4⟩ := creatorsOnUpdate_ok.mp h2
  refine ⟨os, cs, h0, h1, rfl, ?_, h4⟩
  rw [← h3]
  unfold shareTotal
  rw [List.foldl_map]

theorem readGrouping_ok {b : Bytes} {g : Grouping} (h : readGrouping b = .ok g) :
    16 ≤ b.length ∧ b.length ≤ 48 ∧ g.size = u64At b 0 ∧ g.maxSize = u64At b 8 ∧
      g.delegate = (if b.length = 48 then keyAt b 16 else Key.default) := by
  unfold readGrouping at h
  split at h
  · cases h
  · split at h
    · cases h; rw [if_neg (by omega)]; exact ⟨by omega, by omega, rfl, rfl, rfl⟩
    · split at h
      · cases h; rename_i h48; rw [if_pos h48]; exact ⟨by omega, by omega, rfl, rfl, rfl⟩
      · cases h

theorem onUpdate_grouping {old b v : Bytes} {au : Option Key}
    (h : onUpdate .grouping old b au = .ok v) :
    ∃ o n, readGrouping old = .ok o ∧ readGrouping b = .ok n ∧ v = setGroupSize b o.size ∧
      (n.maxSize = 0 ∨ o.size ≤ n.maxSize) := by
  simp only [onUpdate, groupingOnUpdate] at h
  inv at h
  obtain ⟨o, h0, n, h1, h⟩ := h
  split at h
  · cases h
  · rename_i hc
    refine ⟨o, n, h0, h1, (pure_ok.mp h).symm, ?_⟩
    by_cases hz : n.maxSize = 0
    · exact Or.inl hz
    · right
      have := not_and.mp hc hz
      omega

theorem length_setGroupSize {b : Bytes} (n : Nat) (h : 16 ≤ b.length) :
    (setGroupSize b n).length = b.length := length_splice (by rw [length_toLE]; omega)

theorem onCreate_length {t : ExtType} {b v : Bytes} {au : Option Key}
    (h : onCreate t b au = .ok v) : v.length = b.length := by
  by_cases ht : t = .creators
  · subst ht
    obtain ⟨cs, rfl, rfl, _⟩ := onCreate_creators h
    exact length_creatorsBytes_map _ _
  · rw [onCreate_other ht h]

theorem onUpdate_length {t : ExtType} {old b v : Bytes} {au : Option Key}
    (h : onUpdate t old b au = .ok v) : v.length = b.length := by
  by_cases ht : t = .creators
  · subst ht
    obtain ⟨os, cs, _, rfl, rfl, _⟩ := onUpdate_creators h
    exact length_creatorsBytes_map _ _
  · by_cases hg : t = .grouping
    · subst hg
      obtain ⟨o, n, _, hn, rfl, _⟩ := onUpdate_grouping h
      exact length_setGroupSize _ (readGrouping_ok hn).1
    · rw [onUpdate_other ht hg h]

theorem updateValidate_length {t : ExtType} {b v : Bytes} {cur : Option Bytes} {au : Key}
    (h : updateValidate t b cur au = .ok v) : v.length = b.length := by
  unfold updateValidate at h
  cases cur with
  | some old => exact onUpdate_length (mapLife_ok.mp h)
  | none =>
    cases t <;> first | cases h; done | exact onCreate_length (mapLife_ok.mp h)

end Verif
