import Verif.Lemmas.Stores

/-!
# Removing extensions and resizing
-/

namespace Verif

open Verif.Spec

theorem Spec.Packed.end_eq {d : Bytes} {off e : Nat} {es : List Extn} (h : Packed d off es e) :
    e = packedEnd off es := by
  induction h with
  | nil => rfl
  | cons _ _ _ _ _ _ ih => rw [packedEnd]; exact ih

theorem leNat_zeros (n : Nat) : leNat (zeros n) = 0 := by
  unfold zeros
  induction n with
  | zero => rfl
  | succ n ih => rw [List.replicate_succ, leNat, ih]; rfl

theorem leNat_eq_zero {l : Bytes} : leNat l = 0 ↔ ∀ b ∈ l, b = 0 := by
  induction l with
  | nil => simp [leNat]
  | cons b l ih =>
    rw [leNat]
    constructor
    · intro h x hx
      have h1 : b.toNat = 0 := by omega
      have h2 : leNat l = 0 := by omega
      rcases List.mem_cons.mp hx with rfl | hx
      · exact UInt8.toNat_inj.mp h1
      · exact ih.mp h2 x hx
    · intro h
      have h1 : b = 0 := h b (by simp)
      have h2 := ih.mpr fun x hx => h x (by simp [hx])
      rw [h2, h1]; rfl

theorem mem_slice_iff {d : Bytes} {o n : Nat} {b : UInt8} :
    b ∈ slice d o n ↔ ∃ i, i < n ∧ d[o + i]? = some b := by
  rw [List.mem_iff_getElem?]
  constructor
  · rintro ⟨i, hi⟩
    rw [getElem?_slice] at hi
    split at hi
    · rename_i h; exact ⟨i, h, hi⟩
    · cases hi
  · rintro ⟨i, h, hi⟩
    exact ⟨i, by rw [getElem?_slice, if_pos h]; exact hi⟩

/-- Growing with zeros or cutting behind the extensions keeps them. -/
theorem clean_realloc {d : Bytes} {es : List Extn} {n e : Nat} (h : Packed d 168 es e)
    (hz : leNat (slice d e 4) = 0) (hn : e ≤ n) : CleanExts (reallocBytes d n) es := by
  have hle := h.walk.le
  refine ⟨e, h.congr (by rw [length_reallocBytes]; exact hn) (fun i _ hi =>
    getElem?_reallocBytes (by omega) (by omega)), ?_⟩
  rw [leNat_eq_zero] at hz ⊢
  intro b hb
  obtain ⟨i, hi, hb⟩ := mem_slice_iff.mp hb
  by_cases hd : e + i < d.length
  · by_cases hn' : e + i < n
    · rw [getElem?_reallocBytes hd hn'] at hb
      exact hz b (mem_slice_iff.mpr ⟨i, hi, hb⟩)
    · rw [List.getElem?_eq_none (by rw [length_reallocBytes]; omega)] at hb
      cases hb
  · unfold reallocBytes zeros at hb
    rw [List.getElem?_append_right (by simp; omega), List.getElem?_replicate] at hb
    split at hb
    · exact (Option.some.inj hb).symm
    · cases hb

theorem getElem?_reallocBytes_lt {d : Bytes} {n i : Nat} (h : i < d.length) (hn : i < n) :
    (reallocBytes d n)[i]? = d[i]? := getElem?_reallocBytes h hn

section
variable {E : Env} {L L' : Ledger} {a au r : Key} {payer sys : Option Key} {A : Asset}

theorem processResize_stores {x : Strategy} {p : Key} (hs : Stores E.program L a A)
    (hmax : (L' a).data.length ≤ maxDataLen) (h : processResize E L a au p sys x = .ok L') :
    E.signer au = true ∧ au = A.authority ∧ A.mutableByte ≠ 0 ∧ Stores E.program L' a A ∧
      (L' a).data.length = resizedTo (L a).data.length A.exts x := by
  obtain ⟨⟨h1, h2, h3⟩, h4, h5, e, h6, h7⟩ := id hs
  unfold processResize at h
  inv at h
  obtain ⟨hsig, _, _, hau, hmu, size, ht, hr⟩ := h
  have hend := h6.end_eq
  have hle := h6.walk.le
  have hsize : e ≤ size ∧ size = resizedTo (L a).data.length A.exts x := by
    cases x with
    | extend n => cases ht; exact ⟨by omega, rfl⟩
    | trim =>
      simp only [resizeTarget] at ht
      inv at ht
      obtain ⟨y, hy, ht⟩ := ht
      rcases lastExtension_walk h6.walk (Or.inr h7) with ⟨g1, g2⟩ | ⟨_, t, p, m, _, _, _, g3⟩
      · rw [g1] at hy
        cases hy
        cases ht
        rw [g2] at hend ⊢
        rw [packedEnd] at hend
        exact ⟨by rw [hend]; exact Nat.le_refl _, rfl⟩
      · rw [g3] at hy
        cases hy
        cases ht
        exact ⟨Nat.le_refl _, hend⟩
  have hd := (resize_eff hr).2.1
  refine ⟨hsig, ?_, ?_, ?_, ?_⟩
  · rw [h5]; exact hau.symm
  · rw [h5]
    intro h0
    unfold hMutable at hmu
    unfold Asset.of assetAt view at h0
    simp only at h0
    rw [h0] at hmu
    cases hmu
  · refine hs.exts (resize_eff hr).2.2.1 hmax (fun i hi => ?_) ?_
    · rw [hd]; exact getElem?_reallocBytes (by omega) (by omega)
    · rw [hd]; exact clean_realloc h6 h7 hsize.1
  · rw [hd, length_reallocBytes]; exact hsize.2

theorem removeExt_some {t : ExtType} {q : Bytes} {pre post : List Extn} (h : ∀ x ∈ pre, x.1 ≠ t) :
    removeExt t (pre ++ (t, q) :: post) = pre ++ post := by
  induction pre with
  | nil => simp [removeExt]
  | cons x xs ih =>
    obtain ⟨t', p'⟩ := x
    have := h (t', p') (by simp)
    rw [List.cons_append, removeExt, if_neg this, ih fun y hy => h y (by simp [hy])]; rfl

/-- Remove finds the first extension of the type. -/
theorem removeFind_packed {d : Bytes} {es : List Extn} {e : Nat} {t : ExtType}
    {r : Nat × Nat} (h : Packed d 168 es e) (he : leNat (slice d e 4) = 0) (ht : t ≠ .none)
    (hf : removeFind t d (d.length + 1) assetLen = .ok (some r)) :
    ∃ pre p post, es = pre ++ (t, p) :: post ∧ (∀ x ∈ pre, x.1 ≠ t) ∧
      Packed d 168 pre r.1 ∧ Packed d r.1 ((t, p) :: post) e ∧
      r.2 = roundUp8 (r.1 + 16 + p.length) := by
  have hlen := h.walk.length_le
  have hle := h.walk.le
  have e16 : extLen = 16 := rfl
  rw [show assetLen = 168 from rfl] at hf
  rcases h.split t with ⟨h1, h2⟩ | ⟨pre, p, post, m, rfl, h2, h3, h4, h5⟩
  · exfalso
    by_cases hm : e < d.length
    · have : d.length + 1 = es.length + ((d.length - es.length) + 1) := by omega
      rw [this, removeFind_skip h.walk h2 hm, removeFind] at hf
      split at hf
      · rename_i hc
        rcases (show Ends d e from Or.inr he).cases with hc' | ⟨_, hc2⟩
        · omega
        · simp only at hf
          rw [hc2, if_neg (by simpa using fun h => ht h.symm), if_pos rfl] at hf
          cases hf
      · cases hf
    · -- nothing follows the extensions; the search stops at or before the last of them
      have key : ∀ (es : List Extn) (off fuel : Nat), Packed d off es e →
          (∀ x ∈ es, x.1 ≠ t) → removeFind t d fuel off ≠ .ok (some r) := by
        intro es
        induction es with
        | nil =>
          intro off fuel hp _ hr
          cases hp
          cases fuel with
          | zero => cases hr
          | succ n => rw [removeFind, if_neg (by omega)] at hr; cases hr
        | cons x xs ih =>
          intro off fuel hp hx hr
          obtain ⟨t', q⟩ := x
          cases fuel with
          | zero => cases hr
          | succ n =>
            obtain ⟨k1, k2, k3, _, _, _, _, k4⟩ := hp.walk.head
            rw [removeFind] at hr
            split at hr
            · simp only at hr
              rw [k2, if_neg (by have := hx (t', q) (by simp); simpa using this),
                if_neg (by simpa using k3)] at hr
              cases hp with
              | cons _ _ _ hb _ hrest =>
                rw [show (hdrAt d off).bnd = roundUp8 (off + 16 + q.length) from hb] at hr
                exact ih _ _ hrest (fun y hy => hx y (by simp [hy])) hr
            · cases hr
      exact key es 168 _ h h2 hf
  · have hlen' := h4.walk.length_le
    have hle' := h5.walk.le
    obtain ⟨g1, g2, g3, g4, g5, g6, g7, _⟩ := h5.walk.head
    have : d.length + 1 = pre.length + ((d.length - pre.length) + 1) := by omega
    rw [this, removeFind_skip h4.walk h2 (by omega), removeFind] at hf
    split at hf
    · simp only at hf
      rw [g2, if_pos rfl] at hf
      cases hf
      refine ⟨pre, p, post, rfl, h2, h4, h5, ?_⟩
      cases h5 with
      | cons _ _ _ hb _ _ => exact hb
    · cases hf

/-- Removing the last extension. -/
theorem processRemove_stores {t : ExtType} (hs : Stores E.program L a A) (ht : t ≠ .none)
    (hlast : (A.exts.map (·.1)).getLast? = some t) (hfirst : (A.exts.map (·.1)).count t = 1)
    (hmax : (L' a).data.length ≤ maxDataLen) (h : processRemove E L a au r t = .ok L') :
    E.signer au = true ∧ au = A.authority ∧ A.mutableByte ≠ 0 ∧
      Stores E.program L' a { A with exts := removeExt t A.exts } := by
  obtain ⟨⟨h1, h2, h3⟩, h4, h5, e, h6, h7⟩ := id hs
  unfold processRemove at h
  inv at h
  obtain ⟨hsig, _, _, hau, hmu, y, hf, h⟩ := h
  cases y with
  | none => cases h
  | some y =>
    obtain ⟨off, b⟩ := y
    simp only at h
    inv at h
    obtain ⟨_, d1, hm, hr⟩ := h
    obtain ⟨pre, p, post, hes, hpre, k4, k5, hb⟩ := removeFind_packed h6 h7 ht hf
    simp only at k4 k5 hb
    have hpost : post = [] := by
      rw [hes] at hlast hfirst
      rcases List.eq_nil_or_concat post with rfl | ⟨init, z, rfl⟩
      · rfl
      · rw [List.concat_eq_append, List.map_append, List.map_cons, List.map_append,
          ← List.cons_append, ← List.append_assoc, List.map_singleton,
          List.getLast?_append, List.getLast?_singleton] at hlast
        have hz : z.1 = t := Option.some.inj hlast
        simp [hz] at hfirst
        omega
    subst hpost
    have hle4 := k4.walk.le
    have hle5 := k5.walk.le
    have hle6 := h6.walk.le
    cases k5 with
    | cons _ _ _ _ _ kr =>
    cases kr
    rw [← hb] at *
    have hle7 := le_roundUp8 (off + 16 + p.length)
    obtain ⟨m1, m2, m3⟩ := memmove_ok hm (by omega)
    have hd := (resize_eff hr).2.1
    rw [Ledger.setData_same] at hd
    simp only at hd
    have hget : ∀ i, i < (L a).data.length - (b - off) → (L' a).data[i]? = d1[i]? := fun i hi => by
      rw [hd]; exact getElem?_reallocBytes (by omega) hi
    have hlen' : (L' a).data.length = (L a).data.length - (b - off) := by
      rw [hd, length_reallocBytes]
    refine ⟨hsig, ?_, ?_, ?_⟩
    · rw [h5]; exact hau.symm
    · rw [h5]
      intro h0
      unfold hMutable at hmu
      unfold Asset.of assetAt view at h0
      simp only at h0
      rw [h0] at hmu
      cases hmu
    · refine hs.exts ?_ hmax (fun i hi => ?_) ?_
      · rw [(resize_eff hr).2.2.1, Ledger.setData_same]
      · rw [hget i (by omega), m3 i (by omega)]
      · rw [hes, removeExt_some hpre, List.append_nil]
        refine ⟨off, k4.congr (by omega) (fun i _ hi => by rw [hget i (by omega), m3 i hi]), ?_⟩
        rw [leNat_eq_zero] at h7 ⊢
        intro z hz
        obtain ⟨i, hi, hz⟩ := mem_slice_iff.mp hz
        by_cases hlt : off + i < (L a).data.length - (b - off)
        · rw [hget _ hlt, m2 i (by omega)] at hz
          exact h7 z (mem_slice_iff.mpr ⟨i, hi, hz⟩)
        · rw [List.getElem?_eq_none (by omega)] at hz
          cases hz

end

end Verif
