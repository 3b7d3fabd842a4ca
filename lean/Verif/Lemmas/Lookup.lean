import Verif.Lemmas.Except
import Verif.Lemmas.Header

/-!
# Where the lookups of extensions can land
-/

namespace Verif

open Verif.Spec

theorem findFrom_range {t : ExtType} {d : Bytes} {fuel c r : Nat}
    (h : findFrom t d fuel c = .ok (some r)) :
    r + 16 ≤ d.length ∧ ExtType.ofU32 (hdrAt d r).ty = some t := by
  induction fuel generalizing c with
  | zero => simp [findFrom] at h
  | succ n ih =>
    rw [findFrom] at h
    split at h
    · rename_i hc
      simp only at h
      split at h
      · rename_i ht
        simp only [Except.ok.injEq, Option.some.injEq] at h
        subst h
        exact ⟨hc, ht⟩
      · split at h
        · cases h
        · exact ih h
    · cases h

theorem extFindFrom_range {t : ExtType} {d : Bytes} {fuel c r : Nat}
    (h : extFindFrom t d fuel c = .ok (some r)) :
    r + 16 ≤ d.length ∧ ExtType.ofU32 (hdrAt d r).ty = some t := by
  induction fuel generalizing c with
  | zero => simp [extFindFrom] at h
  | succ n ih =>
    rw [extFindFrom] at h
    split at h
    · rename_i hc
      simp only at h
      split at h
      · rename_i ht
        simp only [Except.ok.injEq, Option.some.injEq] at h
        subst h
        exact ⟨hc, ht⟩
      · split at h
        · cases h
        · split at h
          · exact ih h
          · split at h <;> cases h
    · cases h

theorem payloadAt_ok {d p : Bytes} {c : Nat} (h : payloadAt d c = .ok p) :
    c + 16 + p.length ≤ d.length ∧ p = slice d (c + 16) p.length := by
  unfold payloadAt at h
  simp only at h
  split at h
  · rename_i hc
    cases h
    unfold extLen at hc ⊢
    rw [length_slice hc]
    exact ⟨hc, rfl⟩
  · cases h

/-- A payload found by `Extension::get` lies inside the extension area. -/
theorem extGet_range {t : ExtType} {e p : Bytes} {off : Nat}
    (h : extGet t e = .ok (some (off, p))) :
    off + p.length ≤ e.length ∧ p = slice e off p.length := by
  unfold extGet at h
  simp only [bind_ok] at h
  obtain ⟨r, _, h⟩ := h
  cases r with
  | none => cases h
  | some c =>
    inv at h
    obtain ⟨q, hq, h⟩ := h
    simp only [Option.some.injEq, Prod.mk.injEq] at h
    obtain ⟨rfl, rfl⟩ := h
    exact payloadAt_ok hq

/-- A payload found by `Asset::get_mut` lies inside the account. -/
theorem assetGetMut_range {t : ExtType} {d p : Bytes} {off : Nat}
    (h : assetGetMut t d = .ok (some (off, p))) :
    off + p.length ≤ d.length ∧ p = slice d off p.length := by
  unfold assetGetMut at h
  simp only [bind_ok] at h
  obtain ⟨r, _, h⟩ := h
  cases r with
  | none => cases h
  | some c =>
    inv at h
    obtain ⟨q, hq, h⟩ := h
    simp only [Option.some.injEq, Prod.mk.injEq] at h
    obtain ⟨rfl, rfl⟩ := h
    exact payloadAt_ok hq

/-- Writes after the header change only the extension area. -/
theorem view_splice_ext {d bs : Bytes} {off : Nat} (hd : 168 ≤ d.length)
    (h : 168 + off + bs.length ≤ d.length) :
    view (splice d (168 + off) bs) =
      { view d with extensions := splice (d.drop 168) off bs } := by
  unfold view
  simp only [AssetView.mk.injEq]
  refine ⟨?_, ?_, ?_, ?_, ?_, ?_, ?_, ?_, ?_, ?_, ?_⟩
  · exact byteAt_splice_disjoint (by omega) (by omega)
  · exact byteAt_splice_disjoint (by omega) (by omega)
  · exact byteAt_splice_disjoint (by omega) (by omega)
  · exact byteAt_splice_disjoint (by omega) (by omega)
  · exact keyAt_splice_disjoint (by omega) (by omega)
  · exact keyAt_splice_disjoint (by omega) (by omega)
  · exact keyAt_splice_disjoint (by omega) (by omega)
  · exact keyAt_splice_disjoint (by omega) (by omega)
  · exact byteAt_splice_disjoint (by omega) (by omega)
  · exact slice_splice_disjoint (by omega) (by omega)
  · apply List.ext_getElem?
    intro i
    rw [List.getElem?_drop, getElem?_splice (by omega), getElem?_splice (by simp; omega),
      List.getElem?_drop]
    by_cases h1 : i < off
    · rw [if_pos (by omega), if_pos h1]
    · rw [if_neg (by omega), if_neg h1]
      by_cases h2 : i < off + bs.length
      · rw [if_pos (by omega), if_pos h2]
        congr 1; omega
      · rw [if_neg (by omega), if_neg h2]

theorem readGrouping_length {p : Bytes} {g : Grouping} (h : readGrouping p = .ok g) :
    16 ≤ p.length ∧ g.size = leNat (slice p 0 8) := by
  unfold readGrouping at h
  split at h
  · cases h
  · split at h
    · cases h; exact ⟨by omega, rfl⟩
    · split at h
      · cases h; exact ⟨by omega, rfl⟩
      · cases h

theorem splice_splice_prefix {d p bs : Bytes} {off : Nat} (hp : off + p.length ≤ d.length)
    (he : p = slice d off p.length) (hb : bs.length ≤ p.length) :
    splice d off (splice p 0 bs) = splice d off bs := by
  have hl : (splice p 0 bs).length = p.length := length_splice (by omega)
  apply List.ext_getElem?
  intro i
  rw [getElem?_splice (by omega) i, getElem?_splice (d := d) (bs := bs) (by omega) i, hl]
  by_cases h0 : i < off
  · rw [if_pos h0, if_pos h0]
  · rw [if_neg h0, if_neg h0]
    by_cases h2 : i < off + p.length
    · rw [if_pos h2, getElem?_splice (by omega), if_neg (by omega)]
      simp only [Nat.zero_add, Nat.sub_zero]
      by_cases h3 : i < off + bs.length
      · rw [if_pos (by omega), if_pos h3]
      · rw [if_neg (by omega), if_neg h3, he, getElem?_slice, if_pos (by omega)]
        congr 1; omega
    · rw [if_neg h2, if_neg (by omega)]

end Verif
