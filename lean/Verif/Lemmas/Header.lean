import Verif.Spec.Asset
import Verif.Lemmas.Bytes
import Verif.Lemmas.Payload
import Verif.Model.Program

/-!
# Lemmas about the asset header
-/

namespace Verif

open Verif.Spec

theorem byteAt_eq_getElem {d : Bytes} {i : Nat} (h : i < d.length) : d[i]? = some (byteAt d i) := by
  unfold byteAt
  rw [List.getD_eq_getElem?_getD, List.getElem?_eq_getElem h]; rfl

theorem slice_of_keyAt {d d' : Bytes} {o : Nat} (h : o + 32 ≤ d.length) (h' : o + 32 ≤ d'.length)
    (he : keyAt d o = keyAt d' o) : slice d o 32 = slice d' o 32 := by
  have := congrArg Subtype.val he
  unfold keyAt at this
  rwa [ofBytes_val (length_slice h), ofBytes_val (length_slice h')] at this

theorem getElem?_of_slice {d d' : Bytes} {o n i : Nat} (he : slice d o n = slice d' o n)
    (h1 : o ≤ i) (h2 : i < o + n) : d[i]? = d'[i]? := by
  have := congrArg (fun l => l[i - o]?) he
  simp only [getElem?_slice] at this
  rw [if_pos (by omega), if_pos (by omega)] at this
  have e : o + (i - o) = i := by omega
  rwa [e] at this

/-- The view determines the data. -/
theorem view_injective {d d' : Bytes} (h : 168 ≤ d.length) (h' : 168 ≤ d'.length)
    (he : view d = view d') : d = d' := by
  unfold view at he
  simp only [AssetView.mk.injEq] at he
  obtain ⟨e0, e1, e2, e3, eo, eg, ea, ed, er, en, ex⟩ := he
  apply List.ext_getElem?
  intro i
  by_cases h168 : 168 ≤ i
  · obtain ⟨j, rfl⟩ : ∃ j, i = 168 + j := ⟨i - 168, by omega⟩
    rw [← List.getElem?_drop, ← List.getElem?_drop, ex]
  · by_cases c : i = 0
    · subst c; rw [byteAt_eq_getElem (by omega), byteAt_eq_getElem (by omega), e0]
    by_cases c : i = 1
    · subst c; rw [byteAt_eq_getElem (by omega), byteAt_eq_getElem (by omega), e1]
    by_cases c : i = 2
    · subst c; rw [byteAt_eq_getElem (by omega), byteAt_eq_getElem (by omega), e2]
    by_cases c : i = 3
    · subst c; rw [byteAt_eq_getElem (by omega), byteAt_eq_getElem (by omega), e3]
    by_cases c : i = 132
    · subst c; rw [byteAt_eq_getElem (by omega), byteAt_eq_getElem (by omega), er]
    by_cases c : i < 36
    · exact getElem?_of_slice (slice_of_keyAt (by omega) (by omega) eo) (by omega) (by omega)
    by_cases c : i < 68
    · exact getElem?_of_slice (slice_of_keyAt (by omega) (by omega) eg) (by omega) (by omega)
    by_cases c : i < 100
    · exact getElem?_of_slice (slice_of_keyAt (by omega) (by omega) ea) (by omega) (by omega)
    by_cases c : i < 132
    · exact getElem?_of_slice (slice_of_keyAt (by omega) (by omega) ed) (by omega) (by omega)
    · exact getElem?_of_slice en (by omega) (by omega)

theorem drop_splice {d bs : Bytes} {o n : Nat} (h : o + bs.length ≤ n) (hd : n ≤ d.length) :
    (splice d o bs).drop n = d.drop n := by
  apply List.ext_getElem?
  intro i
  rw [List.getElem?_drop, List.getElem?_drop, getElem?_splice (by omega), if_neg (by omega),
    if_neg (by omega)]

/-! ## Stores seen through the view -/

section
variable {d : Bytes} (h : 168 ≤ d.length)
include h

theorem view_setState (s : UInt8) : view (setState d s) = { view d with state := s } := by
  have hl : 1 + [s].length ≤ d.length := by simp; omega
  unfold setState setByte view
  simp only [AssetView.mk.injEq]
  refine ⟨?_, ?_, ?_, ?_, ?_, ?_, ?_, ?_, ?_, ?_, ?_⟩
  · exact byteAt_splice_disjoint hl (by simp)
  · rw [byteAt_splice_inside hl (by simp) (by simp)]; rfl
  · exact byteAt_splice_disjoint hl (by simp)
  · exact byteAt_splice_disjoint hl (by simp)
  · exact keyAt_splice_disjoint hl (by simp)
  · exact keyAt_splice_disjoint hl (by simp)
  · exact keyAt_splice_disjoint hl (by simp)
  · exact keyAt_splice_disjoint hl (by simp)
  · exact byteAt_splice_disjoint hl (by simp)
  · exact slice_splice_disjoint hl (by simp)
  · exact drop_splice (by simp) h

theorem view_setDisc (s : UInt8) : view (setByte d 0 s) = { view d with disc := s } := by
  have hl : 0 + [s].length ≤ d.length := by simp; omega
  unfold setByte view
  simp only [AssetView.mk.injEq]
  refine ⟨?_, ?_, ?_, ?_, ?_, ?_, ?_, ?_, ?_, ?_, ?_⟩
  · rw [byteAt_splice_inside hl (by simp) (by simp)]; rfl
  · exact byteAt_splice_disjoint hl (by simp)
  · exact byteAt_splice_disjoint hl (by simp)
  · exact byteAt_splice_disjoint hl (by simp)
  · exact keyAt_splice_disjoint hl (by simp)
  · exact keyAt_splice_disjoint hl (by simp)
  · exact keyAt_splice_disjoint hl (by simp)
  · exact keyAt_splice_disjoint hl (by simp)
  · exact byteAt_splice_disjoint hl (by simp)
  · exact slice_splice_disjoint hl (by simp)
  · exact drop_splice (by simp) h

theorem view_setStandard (s : UInt8) : view (setByte d 2 s) = { view d with standard := s } := by
  have hl : 2 + [s].length ≤ d.length := by simp; omega
  unfold setByte view
  simp only [AssetView.mk.injEq]
  refine ⟨?_, ?_, ?_, ?_, ?_, ?_, ?_, ?_, ?_, ?_, ?_⟩
  · exact byteAt_splice_disjoint hl (by simp)
  · exact byteAt_splice_disjoint hl (by simp)
  · rw [byteAt_splice_inside hl (by simp) (by simp)]; rfl
  · exact byteAt_splice_disjoint hl (by simp)
  · exact keyAt_splice_disjoint hl (by simp)
  · exact keyAt_splice_disjoint hl (by simp)
  · exact keyAt_splice_disjoint hl (by simp)
  · exact keyAt_splice_disjoint hl (by simp)
  · exact byteAt_splice_disjoint hl (by simp)
  · exact slice_splice_disjoint hl (by simp)
  · exact drop_splice (by simp) h

theorem view_setMutable (m : Bool) :
    view (setMutable d m) = { view d with mutableByte := if m then 1 else 0 } := by
  have hl : 3 + [if m then (1 : UInt8) else 0].length ≤ d.length := by simp; omega
  unfold setMutable setByte view
  simp only [AssetView.mk.injEq]
  refine ⟨?_, ?_, ?_, ?_, ?_, ?_, ?_, ?_, ?_, ?_, ?_⟩
  · exact byteAt_splice_disjoint hl (by simp)
  · exact byteAt_splice_disjoint hl (by simp)
  · exact byteAt_splice_disjoint hl (by simp)
  · rw [byteAt_splice_inside hl (by simp) (by simp)]; rfl
  · exact keyAt_splice_disjoint hl (by simp)
  · exact keyAt_splice_disjoint hl (by simp)
  · exact keyAt_splice_disjoint hl (by simp)
  · exact keyAt_splice_disjoint hl (by simp)
  · exact byteAt_splice_disjoint hl (by simp)
  · exact slice_splice_disjoint hl (by simp)
  · exact drop_splice (by simp) h

theorem view_setOwner (k : Key) : view (setOwner d k) = { view d with owner := k } := by
  have hk := k.2
  have hl : 4 + k.1.length ≤ d.length := by omega
  unfold setOwner view
  simp only [AssetView.mk.injEq]
  refine ⟨?_, ?_, ?_, ?_, ?_, ?_, ?_, ?_, ?_, ?_, ?_⟩
  · exact byteAt_splice_disjoint hl (by omega)
  · exact byteAt_splice_disjoint hl (by omega)
  · exact byteAt_splice_disjoint hl (by omega)
  · exact byteAt_splice_disjoint hl (by omega)
  · exact keyAt_splice_same (by omega)
  · exact keyAt_splice_disjoint hl (by omega)
  · exact keyAt_splice_disjoint hl (by omega)
  · exact keyAt_splice_disjoint hl (by omega)
  · exact byteAt_splice_disjoint hl (by omega)
  · exact slice_splice_disjoint hl (by omega)
  · exact drop_splice (by omega) h

theorem view_setGroup (k : Key) : view (setGroup d k) = { view d with group := k } := by
  have hk := k.2
  have hl : 36 + k.1.length ≤ d.length := by omega
  unfold setGroup view
  simp only [AssetView.mk.injEq]
  refine ⟨?_, ?_, ?_, ?_, ?_, ?_, ?_, ?_, ?_, ?_, ?_⟩
  · exact byteAt_splice_disjoint hl (by omega)
  · exact byteAt_splice_disjoint hl (by omega)
  · exact byteAt_splice_disjoint hl (by omega)
  · exact byteAt_splice_disjoint hl (by omega)
  · exact keyAt_splice_disjoint hl (by omega)
  · exact keyAt_splice_same (by omega)
  · exact keyAt_splice_disjoint hl (by omega)
  · exact keyAt_splice_disjoint hl (by omega)
  · exact byteAt_splice_disjoint hl (by omega)
  · exact slice_splice_disjoint hl (by omega)
  · exact drop_splice (by omega) h

theorem view_setAuthority (k : Key) : view (setAuthority d k) = { view d with authority := k } := by
  have hk := k.2
  have hl : 68 + k.1.length ≤ d.length := by omega
  unfold setAuthority view
  simp only [AssetView.mk.injEq]
  refine ⟨?_, ?_, ?_, ?_, ?_, ?_, ?_, ?_, ?_, ?_, ?_⟩
  · exact byteAt_splice_disjoint hl (by omega)
  · exact byteAt_splice_disjoint hl (by omega)
  · exact byteAt_splice_disjoint hl (by omega)
  · exact byteAt_splice_disjoint hl (by omega)
  · exact keyAt_splice_disjoint hl (by omega)
  · exact keyAt_splice_disjoint hl (by omega)
  · exact keyAt_splice_same (by omega)
  · exact keyAt_splice_disjoint hl (by omega)
  · exact byteAt_splice_disjoint hl (by omega)
  · exact slice_splice_disjoint hl (by omega)
  · exact drop_splice (by omega) h

theorem view_setDelegate (k : Key) (r : UInt8) :
    view (setDelegate d k r) = { view d with delegate := k, roles := r } := by
  have hk := k.2
  have hb : (k.1 ++ [r]).length = 33 := by simp [hk]
  have hl : 100 + (k.1 ++ [r]).length ≤ d.length := by omega
  unfold setDelegate view
  simp only [AssetView.mk.injEq]
  refine ⟨?_, ?_, ?_, ?_, ?_, ?_, ?_, ?_, ?_, ?_, ?_⟩
  · exact byteAt_splice_disjoint hl (by omega)
  · exact byteAt_splice_disjoint hl (by omega)
  · exact byteAt_splice_disjoint hl (by omega)
  · exact byteAt_splice_disjoint hl (by omega)
  · exact keyAt_splice_disjoint hl (by omega)
  · exact keyAt_splice_disjoint hl (by omega)
  · exact keyAt_splice_disjoint hl (by omega)
  · unfold keyAt
    rw [slice_splice_inside hl (by omega) (by omega), slice_append_left _ _ _ (by omega), ofBytes_key]
  · rw [byteAt_splice_inside hl (by omega) (by omega), byteAt_append_right _ _ _ (by omega), hk]; rfl
  · exact slice_splice_disjoint hl (by omega)
  · exact drop_splice (by omega) h

theorem view_setRoles (r : UInt8) : view (setRoles d r) = { view d with roles := r } := by
  have hl : 132 + [r].length ≤ d.length := by simp; omega
  unfold setRoles setByte view
  simp only [AssetView.mk.injEq]
  refine ⟨?_, ?_, ?_, ?_, ?_, ?_, ?_, ?_, ?_, ?_, ?_⟩
  · exact byteAt_splice_disjoint hl (by simp)
  · exact byteAt_splice_disjoint hl (by simp)
  · exact byteAt_splice_disjoint hl (by simp)
  · exact byteAt_splice_disjoint hl (by simp)
  · exact keyAt_splice_disjoint hl (by simp)
  · exact keyAt_splice_disjoint hl (by simp)
  · exact keyAt_splice_disjoint hl (by simp)
  · exact keyAt_splice_disjoint hl (by simp)
  · rw [byteAt_splice_inside hl (by simp) (by simp)]; rfl
  · exact slice_splice_disjoint hl (by simp)
  · exact drop_splice (by simp) h

omit h in
theorem length_podStr35 (n : Bytes) : (podStr35 n).length = 35 := by
  unfold podStr35 zeros; simp; omega

theorem view_setName (n : Bytes) : view (setName d n) = { view d with name := podStr35 n } := by
  have hk := length_podStr35 n
  have hl : 133 + (podStr35 n).length ≤ d.length := by omega
  unfold setName view
  simp only [AssetView.mk.injEq]
  refine ⟨?_, ?_, ?_, ?_, ?_, ?_, ?_, ?_, ?_, ?_, ?_⟩
  · exact byteAt_splice_disjoint hl (by omega)
  · exact byteAt_splice_disjoint hl (by omega)
  · exact byteAt_splice_disjoint hl (by omega)
  · exact byteAt_splice_disjoint hl (by omega)
  · exact keyAt_splice_disjoint hl (by omega)
  · exact keyAt_splice_disjoint hl (by omega)
  · exact keyAt_splice_disjoint hl (by omega)
  · exact keyAt_splice_disjoint hl (by omega)
  · exact byteAt_splice_disjoint hl (by omega)
  · exact slice_splice_same hl (by omega)
  · exact drop_splice (by omega) h

theorem length_setByte (i : Nat) (b : UInt8) (hi : i < 168) : (setByte d i b).length = d.length :=
  length_splice (by simp; omega)
theorem length_setState (s : UInt8) : (setState d s).length = d.length :=
  length_setByte h _ _ (by omega)
theorem length_setMutable (m : Bool) : (setMutable d m).length = d.length :=
  length_setByte h _ _ (by omega)
theorem length_setRoles (r : UInt8) : (setRoles d r).length = d.length :=
  length_setByte h _ _ (by omega)
theorem length_setOwner (k : Key) : (setOwner d k).length = d.length :=
  length_splice (by have := k.2; omega)
theorem length_setGroup (k : Key) : (setGroup d k).length = d.length :=
  length_splice (by have := k.2; omega)
theorem length_setAuthority (k : Key) : (setAuthority d k).length = d.length :=
  length_splice (by have := k.2; omega)
theorem length_setDelegate (k : Key) (r : UInt8) : (setDelegate d k r).length = d.length :=
  length_splice (by have := k.2; simp; omega)
theorem length_setName (n : Bytes) : (setName d n).length = d.length :=
  length_splice (by have := length_podStr35 n; omega)

end

/-! ## Ledger -/

theorem Ledger.set_same (L : Ledger) (k : Key) (a : Account) : L.set k a k = a := by
  simp [Ledger.set]
theorem Ledger.set_other (L : Ledger) {k x : Key} (a : Account) (h : x ≠ k) : L.set k a x = L x := by
  simp [Ledger.set, h]
theorem Ledger.setData_same (L : Ledger) (k : Key) (d : Bytes) :
    L.setData k d k = ⟨(L k).lamports, d, (L k).owner⟩ := by simp [Ledger.setData, Ledger.set]
theorem Ledger.setData_other (L : Ledger) {k x : Key} (d : Bytes) (h : x ≠ k) :
    L.setData k d x = L x := by simp [Ledger.setData, Ledger.set, h]
theorem Ledger.setLamports_same (L : Ledger) (k : Key) (n : Nat) :
    L.setLamports k n k = ⟨n, (L k).data, (L k).owner⟩ := by
  simp [Ledger.setLamports, Ledger.set]
theorem Ledger.setLamports_other (L : Ledger) {k x : Key} (n : Nat) (h : x ≠ k) :
    L.setLamports k n x = L x := by simp [Ledger.setLamports, Ledger.set, h]

theorem onlyData_setData (L : Ledger) (k : Key) (d : Bytes) (h : d.length = (L k).data.length) :
    OnlyData L (L.setData k d) k := by
  refine ⟨fun x hx => L.setData_other d hx, ?_, ?_, ?_⟩ <;> rw [Ledger.setData_same]
  exact h

theorem onlyData_refl (L : Ledger) (k : Key) : OnlyData L L k := ⟨fun _ _ => rfl, rfl, rfl, rfl⟩

end Verif
