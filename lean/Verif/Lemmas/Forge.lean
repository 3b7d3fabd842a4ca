import Verif.Spec.Forge
import Verif.Lemmas.JsUpdate
import Verif.Lemmas.Census
import Verif.Lemmas.Life

/-!
# Forged assets
-/

namespace Verif

open Verif.Spec

variable {E : Env} {L L' : Ledger} {k p : Key} {total : Nat} {accts : List Key}

/-- An announcement of 8 bytes. -/
def announced : Bytes := zeros 168 ++ (toLE 4 2 ++ toLE 4 8 ++ toLE 4 192 ++ zeros 4)

theorem announced_length : announced.length = 184 := by decide +kernel

theorem announced_blank : Blank announced := by
  refine ⟨by rw [announced_length]; omega, ?_⟩
  decide +kernel

theorem announced_last : lastExtension announced = .ok (some (⟨2, 8, 192⟩, 184)) := by decide +kernel

theorem detour_length : (detour 0).length = 24 := by decide +kernel

theorem detoured_blank : Blank (announced ++ detour 0) := by
  refine ⟨by rw [List.length_append, announced_length]; omega, ?_⟩
  decide +kernel

theorem detoured_last : lastExtension (announced ++ detour 0) = .ok (some (⟨4, 0, 0⟩, 208)) := by
  decide +kernel

theorem detoured_valid : writeValidate (announced ++ detour 0) = .ok (announced ++ detour 0) := by
  decide +kernel

theorem detoured_contains : assetContains .attributes (announced ++ detour 0) = .ok false := by
  decide +kernel

/-- The first call. -/
theorem forge_announce (hu : Underway E.program L k p total) (hs : Serves E L k p)
    (hd : (L k).data = []) (ha : Affords E 208 total) :
    ∃ L', processAllocate E L k (some p) (some Key.system) ⟨.blob, 8, none⟩ = .ok L' ∧
      Paid L L' k p ∧ (L' k).owner = E.program ∧ (L' k).data = announced := by
  have hf : Fits ⟨.blob, 8, none⟩ := ⟨by decide, by rintro q ⟨⟩⟩
  have hr : Ready (L k).data [] := Or.inl ⟨hd, rfl⟩
  have hn : nextAt (L k).data = 168 := by unfold nextAt; rw [if_pos hd]
  obtain ⟨L', h1, h2, h3⟩ := allocate_live (x := ⟨.blob, 8, none⟩) hu hs hr hf (by decide)
    (by simp) (by decide) (by decide) (by
      rw [hn]
      exact ⟨ha.1, fun n h => ha.2 n (Nat.le_trans h (by decide))⟩)
  obtain ⟨_, e2⟩ := allocate_exact h1 (Or.inl ⟨hd, rfl⟩) (by rw [hd]; simp) hf (by decide)
  refine ⟨L', h1, h2, h3, ?_⟩
  rw [(e2 (by decide)).1]
  decide +kernel

/-- The second call. -/
theorem forge_detour (hu : Underway E.program L k p total) (hs : Serves E L k p)
    (hd : (L k).data = announced) (ha : Affords E 208 total) :
    ∃ L', processWrite E L k p Key.system ⟨false, detour 0⟩ = .ok L' ∧
      Paid L L' k p ∧ (L' k).owner = E.program ∧ (L' k).data = announced ++ detour 0 := by
  have hne : (L k).data ≠ [] := by rw [hd]; decide +kernel
  have hl : (L k).data.length = 184 := by rw [hd, announced_length]
  obtain ⟨L1, r1, r2, r3⟩ := resize_paid (size := 208) hu hs (ha.2 _ (Nat.le_refl _)) ha.1 (by omega)
    (by omega)
  obtain ⟨_, r4, _⟩ := resize_eff r1
  have hc : memcpy (L1 k).data 184 (detour 0) = .ok (announced ++ detour 0) := by
    rw [r4, hd]; decide +kernel
  refine ⟨L1.setData k (announced ++ detour 0), ?_, r2.setData hu.other, ?_, ?_⟩
  · unfold processWrite
    inv
    refine ⟨trivial, hs.signer.2, hs.signer.1, hu.buffer hne, by rw [hd]; exact announced_blank.1,
      by rw [hd]; exact announced_blank.disc, _, by rw [hd]; exact announced_last, ?_⟩
    simp only [Bool.false_eq_true, if_false]
    inv
    rw [hl, detour_length]
    refine ⟨by omega, L1, ?_, announced ++ detour 0, hc, ?_⟩
    · rw [if_neg (by omega)]; exact r1
    · rw [if_neg (by rw [List.length_append, announced_length, detour_length]; omega)]
      inv
      exact ⟨_, detoured_valid, rfl⟩
  · rw [Ledger.setData_same]; exact r3.trans (hu.buffer hne)
  · rw [Ledger.setData_same]

/-- The third call. -/
theorem forge_fill {w : Bytes} (hu : Underway E.program L k p total) (hs : Serves E L k p)
    (hd : (L k).data = announced ++ detour 0) (ha : Affords E (16 + w.length) total)
    (h1 : 192 ≤ w.length) (h2 : w.length ≤ 10000) (h8 : w.length % 8 = 0) :
    ∃ L', processAllocate E L k (some p) (some Key.system)
        ⟨.attributes, UInt32.ofNat w.length, some w⟩ = .ok L' ∧
      Paid L L' k p ∧ (L' k).owner = E.program ∧ (L' k).data = forgedHeader w.length ++ w := by
  have e16 : extLen = 16 := rfl
  have e32 : two32 = 4294967296 := rfl
  have hne : (L k).data ≠ [] := by rw [hd]; decide +kernel
  have hl : (L k).data.length = 208 := by
    rw [hd, List.length_append, announced_length, detour_length]
  have hn : (UInt32.ofNat w.length).toNat = w.length :=
    UInt32.toNat_ofNat_of_lt (by simp [UInt32.size]; omega)
  have hal : align8 (0 + extLen + w.length) = 16 + w.length := by
    unfold align8; omega
  have hext : allocateExtended (UInt32.ofNat w.length) 0 w = 16 + w.length := by
    unfold allocateExtended
    rw [hn, Nat.mod_eq_of_lt (by omega), if_pos rfl, hal]
  have hoff : allocateOffset E L k .attributes = .ok (true, 0) := by
    unfold allocateOffset
    simp only
    rw [if_neg hne]
    inv
    refine ⟨hu.buffer hne, by rw [hd]; exact detoured_blank.1, by rw [hd]; exact detoured_blank.disc,
      false, by rw [hd]; exact detoured_contains, rfl, _, by rw [hd]; exact detoured_last, ?_⟩
    simp only
    inv
    exact ⟨by omega, trivial⟩
  obtain ⟨L1, s1, s2, s3, s4⟩ : ∃ L1, allocateSpace E L k (some p) (some Key.system)
      (UInt32.ofNat w.length) true 0 w = .ok L1 ∧ Paid L L1 k p ∧ (L1 k).owner = E.program ∧
      (L1 k).data = reallocBytes (L k).data (16 + w.length) := by
    unfold allocateSpace
    simp only [hext]
    rw [if_neg (by simp)]
    by_cases hlt : 208 < 16 + w.length
    · rw [if_pos (Or.inl (by omega))]
      obtain ⟨L1, r1, r2, r3⟩ := resize_paid (size := 16 + w.length) hu hs (ha.2 _ (Nat.le_refl _)) ha.1
        (by omega) (by omega)
      exact ⟨L1, r1, r2, r3.trans (hu.buffer hne), (resize_eff r1).2.1⟩
    · rw [if_neg (by rw [hn, Nat.mod_eq_of_lt (by omega)]; omega)]
      refine ⟨L, rfl, Paid.refl, hu.buffer hne, ?_⟩
      rw [show 16 + w.length = (L k).data.length by omega]
      simp [reallocBytes, zeros]
  generalize hD : reallocBytes (L k).data (16 + w.length) = D at s4
  have hDl : D.length = 16 + w.length := by rw [← hD, length_reallocBytes']
  have hD4 : (D.drop 12).take 4 = [0, 0, 0, 0] := by
    rw [← hD]
    have hre : reallocBytes (L k).data (16 + w.length) =
        (L k).data ++ zeros (16 + w.length - (L k).data.length) := by
      unfold reallocBytes
      rw [List.take_of_length_le (by omega)]
    rw [hre, List.drop_append_of_le_length (by omega),
      List.take_append_of_le_length (by rw [List.length_drop]; omega), hd]
    decide +kernel
  have hw : writeHdr D 0 1 w.length (16 + w.length) =
      .ok (toLE 4 1 ++ toLE 4 w.length ++ toLE 4 (16 + w.length) ++ D.drop 12) := by
    unfold writeHdr setHdr splice
    rw [if_neg (by omega)]
    simp [length_toLE]
  have hH : (toLE 4 1 ++ toLE 4 w.length ++ toLE 4 (16 + w.length) ++ D.drop 12).take 16 =
      forgedHeader w.length := by
    rw [List.take_append, List.take_of_length_le (by simp [length_toLE])]
    unfold forgedHeader
    rw [show (toLE 4 1 : Bytes) = [1, 0, 0, 0] by decide]
    simp only [List.length_append, length_toLE, List.length_cons, List.length_nil]
    rw [hD4]
  have hc : copyData (toLE 4 1 ++ toLE 4 w.length ++ toLE 4 (16 + w.length) ++ D.drop 12) (0 + extLen) w =
      .ok (forgedHeader w.length ++ w) := by
    unfold copyData memcpy
    rw [if_neg (by rintro rfl; simp at h1)]
    have hlen : (toLE 4 1 ++ toLE 4 w.length ++ toLE 4 (16 + w.length) ++ D.drop 12).length =
        16 + w.length := by
      simp only [List.length_append, length_toLE, List.length_drop, hDl]
      omega
    rw [if_neg (by omega), if_neg (by omega)]
    unfold splice
    rw [show 0 + extLen = 16 from rfl, hH, List.drop_of_length_le (by omega), List.append_nil]
  refine ⟨L1.setData k (forgedHeader w.length ++ w), ?_, s2.setData hu.other, ?_, ?_⟩
  · unfold processAllocate
    inv
    refine ⟨hs.signer.1, _, hoff, ?_⟩
    simp only
    unfold saveExtensionData
    inv
    refine ⟨by rw [hn]; exact Nat.mod_le _ _, L1, s1, _, ?_, _, hc, rfl⟩
    rw [s4, hn, hal]
    exact hw
  · rw [Ledger.setData_same]; exact s3
  · rw [Ledger.setData_same]

theorem forgedHeader_length (n : Nat) : (forgedHeader n).length = 16 := by
  simp [forgedHeader, length_toLE]

/-- An Allocate of a client. -/
theorem send_allocate {x : ExtInput} {xs : List ClientIx} (hu : Underway E.program L k p total)
    (hb : (L k).data ≠ [] → Blank (L k).data) (hp : E.program ≠ Key.system ∧ p ≠ E.program)
    (hsys : Key.system ≠ k → Key.system ≠ p → Whole E.program L Key.system)
    (hf : ∀ q, x.data = some q → q.length < 4294967296)
    (h : processAllocate (serving E L ((Call.allocate k (some p) (some Key.system) x).build E.program))
      L k (some p) (some Key.system) x = .ok L')
    (hpd : Paid L L' k p) (hl : (L' k).data.length ≤ 10485760) :
    sends E L ((Call.allocate k (some p) (some Key.system) x).build E.program :: xs) =
      sends E L' xs := by
  refine send_call (c := Call.allocate k (some p) (some Key.system) x) (fun q hq => hf q hq) ?_
  refine accept_open (p := p) (total := total) hu serves_allocate hb rfl ?_ hp.1 rfl ?_ hpd hl
  · intro y hy h1 h2
    simp only [ClientIx.keys, Call.build, Call.metas, metaRw, metaRo, metaOpt, List.map_cons,
      List.map_nil, List.mem_cons, List.not_mem_nil, or_false] at hy
    rcases hy with rfl | rfl | rfl
    · exact absurd rfl h1
    · exact absurd rfl h2
    · exact hsys h1 h2
  · generalize hE : serving E L ((Call.allocate k (some p) (some Key.system) x).build E.program) = E1 at h
    have hprog : E1.program = E.program := by rw [← hE]; rfl
    show processAllocate E1 L k (optAcc E1 p) (optAcc E1 Key.system) x = _
    unfold optAcc
    rw [hprog, if_neg hp.2, if_neg (Ne.symm hp.1)]
    exact h

/-- A Write of a client. -/
theorem send_write {x : WriteInput} {xs : List ClientIx} (hu : Underway E.program L k p total)
    (hb : (L k).data ≠ [] → Blank (L k).data) (hp : E.program ≠ Key.system)
    (hsys : Key.system ≠ k → Key.system ≠ p → Whole E.program L Key.system)
    (hf : x.bytes.length < 4294967296)
    (h : processWrite (serving E L ((Call.write k p Key.system x).build E.program))
      L k p Key.system x = .ok L')
    (hpd : Paid L L' k p) (hl : (L' k).data.length ≤ 10485760) :
    sends E L ((Call.write k p Key.system x).build E.program :: xs) = sends E L' xs := by
  refine send_call (c := Call.write k p Key.system x) hf ?_
  refine accept_open (p := p) (total := total) hu serves_write hb rfl ?_ hp rfl h hpd hl
  intro y hy h1 h2
  simp only [ClientIx.keys, Call.build, Call.metas, metaRw, metaRo, List.map_cons,
    List.map_nil, List.mem_cons, List.not_mem_nil, or_false] at hy
  rcases hy with rfl | rfl | rfl
  · exact absurd rfl h1
  · exact absurd rfl h2
  · exact hsys h1 h2

/-- The three calls go through, and the account has the content asked for. -/
theorem forgery_live {w : Bytes} (hu : L k = ⟨0, [], Key.system⟩) (hne : p ≠ k)
    (hw : (L p).owner = Key.system ∧ (L p).data = [])
    (ha : Affords E (16 + w.length) (L p).lamports)
    (h1 : 192 ≤ w.length) (h2 : w.length ≤ 10000) (h8 : w.length % 8 = 0)
    (hp : E.program ≠ Key.system ∧ p ≠ E.program) (hsys : Whole E.program L Key.system) :
    ∃ L', sends E L ((forgery k p w).map (·.build E.program)) = .ok L' ∧
      (L' k).owner = E.program ∧ (L' k).data = forgedHeader w.length ++ w ∧
      Paid L L' k p := by
  have ha2 : Affords E 208 (L p).lamports := ⟨ha.1, fun n h => ha.2 n (by omega)⟩
  have hu0 : Underway E.program L k p (L p).lamports :=
    ⟨hne, hw, by rw [hu]; rfl, fun _ => hu, fun h => by rw [hu] at h; exact absurd rfl h⟩
  obtain ⟨L1, a1, a2, a3, a4⟩ := forge_announce
    (E := serving E L ((Call.allocate k (some p) (some Key.system) ⟨.blob, 8, none⟩).build E.program))
    hu0 serves_allocate (by rw [hu]) ha2
  have s1 := fun xs => send_allocate (xs := xs) hu0 (fun h => by rw [hu] at h; exact absurd rfl h) hp
    (fun _ _ => hsys) (by rintro q ⟨⟩) a1 a2 (by rw [a4, announced_length]; omega)
  have hu1 : Underway E.program L1 k p (L p).lamports :=
    a2.underway hu0 a3 (by rw [a4]; decide +kernel)
  obtain ⟨L2, b1, b2, b3, b4⟩ := forge_detour
    (E := serving E L1 ((Call.write k p Key.system ⟨false, detour 0⟩).build E.program))
    hu1 serves_write a4 ha2
  have s2 := fun xs => send_write (xs := xs) hu1 (fun _ => by rw [a4]; exact announced_blank) hp.1
    (fun g1 g2 => Whole.paid a2 g1 g2 hsys) (by show (detour 0).length < _; rw [detour_length]; omega)
    b1 b2 (by rw [b4, List.length_append, announced_length, detour_length]; omega)
  have hu2 : Underway E.program L2 k p (L p).lamports :=
    b2.underway hu1 b3 (by rw [b4]; decide +kernel)
  obtain ⟨L3, c1, c2, c3, c4⟩ := forge_fill (w := w)
    (E := serving E L2 ((Call.allocate k (some p) (some Key.system)
      ⟨.attributes, UInt32.ofNat w.length, some w⟩).build E.program))
    hu2 serves_allocate b4 ha h1 h2 h8
  have s3 := fun xs => send_allocate (xs := xs) hu2 (fun _ => by rw [b4]; exact detoured_blank) hp
    (fun g1 g2 => Whole.paid (a2.trans b2) g1 g2 hsys) (by rintro q ⟨⟩; omega) c1 c2
    (by rw [c4, List.length_append, forgedHeader_length]; omega)
  have hpd := (a2.trans b2).trans c2
  refine ⟨L3, ?_, c3, c4, hpd⟩
  unfold forgery
  rw [List.map_cons, s1, List.map_cons, s2, List.map_cons, s3]
  rfl

/-! ## Copies -/

theorem copyOf_length {d : Bytes} (h : 168 ≤ d.length) :
    (copyOf d).length = roundUp8 d.length + 24 := by
  have := le_roundUp8 d.length
  unfold copyOf
  rw [List.length_append, List.length_drop, List.length_replicate]
  omega

theorem forged_get {d : Bytes} {n i : Nat} (h : 168 ≤ d.length) (h1 : 16 ≤ i) (h2 : i < d.length) :
    (forgedHeader n ++ copyOf d)[i]? = d[i]? := by
  unfold copyOf
  rw [List.getElem?_append_right (by rw [forgedHeader_length]; omega), forgedHeader_length,
    List.getElem?_append_left (by rw [List.length_drop]; omega), List.getElem?_drop]
  congr 1
  omega

theorem forged_clean {d : Bytes} {es : List Extn} {n : Nat} (h : 168 ≤ d.length)
    (hc : CleanExts d es) : CleanExts (forgedHeader n ++ copyOf d) es := by
  obtain ⟨e, h1, h2⟩ := hc
  have hle := h1.walk.le
  have hl : (forgedHeader n ++ d.drop 16).length = d.length := by
    rw [List.length_append, forgedHeader_length, List.length_drop]; omega
  refine ⟨e, h1.congr ?_ (fun i hi hj => forged_get h (by omega) (by omega)), ?_⟩
  · rw [List.length_append, forgedHeader_length, copyOf_length h]
    have := le_roundUp8 d.length
    omega
  · unfold copyOf slice
    rw [← List.append_assoc, List.drop_append_of_le_length (by omega), List.take_append,
      leNat_append, List.take_replicate]
    have hz := leNat_zeros (min (4 - (List.drop e (forgedHeader n ++ d.drop 16)).length)
      (roundUp8 d.length + 24 + 16 - d.length))
    unfold zeros at hz
    rw [hz]
    have hs : List.take 4 (List.drop e (forgedHeader n ++ d.drop 16)) = slice d e 4 := by
      unfold slice
      rw [List.drop_append, List.drop_of_length_le (by rw [forgedHeader_length]; omega),
        forgedHeader_length, List.drop_drop, List.nil_append]
      congr 2
      omega
    rw [hs, h2]
    rfl

theorem forged_stores {program : Key} {d : Bytes} {es : List Extn} (h2 : 168 ≤ d.length)
    (hl : d.length ≤ 10000) (h6 : CleanExts d es) {n : Nat} (ho : (L' k).owner = program)
    (hd : (L' k).data = forgedHeader n ++ copyOf d) :
    ∃ o, slice o.1 8 4 = [0, 0, 0, 0] ∧ Stores program L' k
      { Asset.of (view d) es with state := 0, standard := 0, mutableByte := 0, owner := o } := by
  have hlen : (L' k).data.length = roundUp8 d.length + 40 := by
    rw [hd, List.length_append, forgedHeader_length, copyOf_length h2]; omega
  have hru := le_roundUp8 d.length
  have hup : roundUp8 d.length ≤ d.length + 7 := by unfold roundUp8; omega
  have hg : ∀ i, 16 ≤ i → i < 168 → (L' k).data[i]? = d[i]? := fun i h1 h3 => by
    rw [hd]; exact forged_get h2 h1 (by omega)
  have hslice : ∀ o n, 16 ≤ o → o + n ≤ 168 → slice (L' k).data o n = slice d o n :=
    fun o n h1 h3 => slice_congr fun i hi => hg _ (by omega) (by omega)
  have hb : ∀ i, i < 4 → byteAt (L' k).data i = byteAt [1, 0, 0, 0] i := fun i hi => by
    rw [hd]
    unfold forgedHeader byteAt
    rw [List.getD_eq_getElem?_getD, List.getD_eq_getElem?_getD, List.append_assoc, List.append_assoc,
      List.append_assoc, List.getElem?_append_left (by simpa using hi)]
  have hk : ∀ o, 16 ≤ o → o + 32 ≤ 168 → keyAt (L' k).data o = keyAt d o := fun o h1 h3 => by
    unfold keyAt; rw [hslice o 32 h1 h3]
  have k4 : byteAt (L' k).data 132 = byteAt d 132 := by
    unfold byteAt
    rw [List.getD_eq_getElem?_getD, List.getD_eq_getElem?_getD, hg 132 (by omega) (by omega)]
  have hown : slice (keyAt (L' k).data 4).1 8 4 = [0, 0, 0, 0] := by
    have e : (keyAt (L' k).data 4).1 = slice (L' k).data 4 32 := by
      unfold keyAt
      rw [ofBytes_val (by unfold slice; rw [List.length_take, List.length_drop]; omega)]
    rw [e, hd]
    unfold slice forgedHeader
    simp [List.take_append, List.drop_append, length_toLE]
  refine ⟨keyAt (L' k).data 4, hown, ⟨ho, by omega, hb 0 (by omega)⟩, by omega, ?_, ?_⟩
  · unfold assetAt view Asset.of
    simp only
    rw [hk 36 (by omega) (by omega), hk 68 (by omega) (by omega), hk 100 (by omega) (by omega), k4,
      hslice 133 35 (by omega) (by omega), hb 1 (by omega), hb 2 (by omega), hb 3 (by omega)]
    rfl
  · rw [hd]; exact forged_clean h2 h6

/-! ## Origins -/

variable {program : Key}

theorem foreign_asset (hf : Foreign program L L') (h : IsAsset program L' k) :
    IsAsset program L k ∧ (L' k).data = (L k).data := by
  by_cases hn : (L k).owner = program
  · obtain ⟨h1, h2⟩ := (hf k).1 hn
    obtain ⟨g1, g2, g3⟩ := h
    unfold assetAt at g3
    rw [h2] at g2 g3
    exact ⟨⟨hn, g2, g3⟩, h2⟩
  · have hz := ((hf k).2 hn h.1).1
    have h1 : byteAt (L' k).data 0 = 1 := h.2.2
    have h2 := h.2.1
    rw [hz _ (List.mem_of_getElem? (getElem?_byteAt (by omega)))] at h1
    exact absurd h1 (by decide)

/-- Assets come from Create. -/
theorem created {L0 : Ledger} (hw : WellFormed program L0) (hn : ¬ IsAsset program L0 k)
    (hs : ProperSteps program L0 L) (ha : IsAsset program L k) :
    ∃ E L1 L2 accts x, E.program = program ∧ ProperSteps program L0 L1 ∧
      ¬ IsAsset program L1 k ∧ (∀ y, E.origLen y = (L1 y).data.length) ∧ Sane (asked x) ∧
      execute E L1 accts (.create x) = .ok L2 ∧ accts.head? = some k ∧ Alive program k L2 L := by
  induction hs with
  | refl => exact absurd ha hn
  | @tail L' L'' hs h ih =>
    by_cases hp : IsAsset program L' k
    · obtain ⟨E, L1, L2, accts, x, h1, h2, h3, h4, h5, h6, h7, h8⟩ := ih hp
      exact ⟨E, L1, L2, accts, x, h1, h2, h3, h4, h5, h6, h7, .tail h8 h ha⟩
    · have hw1 := wf_steps hw hs
      cases h with
      | foreign hf => exact absurd (foreign_asset hf ha).1 hp
      | instr E accts i hpr hl h hi =>
        subst hpr
        obtain ⟨A', hA', _⟩ := (wf_instr hw1 h hl hi).stores ha
        by_cases hc : ∃ x, i = .create x ∧ accts.head? = some k
        · obtain ⟨x, rfl, hh⟩ := hc
          exact ⟨E, L', _, accts, x, rfl, hs, hp, hl, hi, h, hh, .refl _ ha⟩
        · obtain ⟨A, hA, _⟩ := born_before hw1 h hl hi hA' fun x hx hh => hc ⟨x, hx, hh⟩
          exact absurd hA.1 hp

/-- What stays true of an asset while it exists. -/
theorem Spec.Alive.invariant {I : Asset → Prop}
    (hstep : ∀ E accts i A A', Move E accts k i A A' → I A → I A')
    (hw : WellFormed program L) (hl : Alive program k L L') {A : Asset} (hs : Stores program L k A)
    (hI : I A) : WellFormed program L' ∧ ∃ A', Stores program L' k A' ∧ I A' := by
  induction hl with
  | refl => exact ⟨hw, A, hs, hI⟩
  | tail _ h ha ih =>
    obtain ⟨hw1, B, hB, hIB⟩ := ih
    cases h with
    | foreign hf => exact ⟨wf_foreign hw1 hf, B, hB.foreign hf, hIB⟩
    | instr E accts i hp hl h hi =>
      subst hp
      obtain ⟨B', hB', hd⟩ := hw1.stores hB.1
      obtain rfl := hB.unique hB'
      refine ⟨wf_instr hw1 h hl hi, ?_⟩
      rcases refine hB h (hi.sound hB hd) with ⟨_, _, hg⟩ | ⟨C, hC, hm⟩
      · have := ha.2.1
        rw [hg] at this
        simp at this
      · exact ⟨C, hC, hstep _ _ _ _ _ hm hIB⟩

theorem admits_group {a g au : Key} {G : Asset} (h : processGroup E L a g au = .ok L')
    (hG : Stores E.program L g G) : E.signer au = true ∧ ∃ p, IsGroup G p ∧ MayGroup G p au := by
  unfold processGroup at h
  inv at h
  obtain ⟨h1, _, _, _, _, _, _, _, r, h4, h5⟩ := h
  cases r with
  | none => cases h5
  | some r =>
    obtain ⟨off, p⟩ := r
    inv at h5
    obtain ⟨gr, h6, h7, _, _⟩ := h5
    obtain ⟨r1, r2, _, _, r5⟩ := readGrouping_ok h6
    have hp : lookup .grouping G.exts = some p := by
      have hg := hG.get (t := .grouping) (by decide)
      unfold assetGet at hg
      obtain ⟨_, _, _, e, q6, q7⟩ := id hG
      rw [show assetLen = 168 from rfl] at h4
      rcases extGet_walk q6.walk (Or.inr q7) (t := .grouping) (by decide) with ⟨_, g2⟩ |
        ⟨_, _, _, _, _, _, g3, _, _, g6⟩
      · rw [g2] at h4; cases h4
      · rw [g6] at h4; cases h4; exact g3
    refine ⟨h1, p, ⟨hp, r1, r2⟩, ?_⟩
    unfold groupAuthority at h7
    rw [hG.authority_eq, r5] at h7
    unfold MayGroup
    by_cases ha : G.authority = au
    · exact Or.inl ha
    · rw [if_pos (Ne.symm ha)] at h7
      right
      by_cases h48 : p.length = 48
      · rw [if_pos h48] at h7
        split at h7
        · rename_i hd
          inv at h7
          exact ⟨h48, hd, h7⟩
        · cases h7
      · rw [if_neg h48] at h7
        simp at h7

/-- One step makes members only with the consent of the group. -/
theorem joins {i : Instr} {g : Key} (hw : WellFormed E.program L) (h : execute E L accts i = .ok L')
    (hl : ∀ y, E.origLen y = (L y).data.length) (hi : Proper E.program L accts i)
    (hg : g ≠ Key.default) (hn : ¬ Member E.program L g k) (hm : Member E.program L' g k) :
    ∃ s, AsksToJoin E.program accts g k s i ∧ Admits E L g s := by
  have hw' := wf_instr hw h hl hi
  obtain ⟨A', hA', hAg⟩ := (member_iff hw').mp hm
  by_cases hc : ∃ x, i = .create x ∧ accts.head? = some k
  · obtain ⟨x, rfl, hh⟩ := hc
    obtain ⟨a, au, o, g', ga, pa, s, rest, rfl, hp⟩ := exec_create h
    obtain rfl : a = k := by simpa using hh
    obtain ⟨_, L1, L2, d, types, h1, h2, _, _, _, _, h3⟩ := processCreate_inv hp
    obtain ⟨e1, o1, hprev⟩ := createPrepare_eff h1
    obtain ⟨e2, _⟩ := allocateAll_eff h2 o1
    have hbuf : (L a).data.length ≤ 10485760 ∧ Buffer (L a).data := by
      rcases hprev with ⟨hd, _, _⟩ | ⟨ho, hl1, hd, _⟩
      · rw [hd]; exact ⟨by simp, buffer_nil⟩
      · refine ⟨(hw a ho).1, ?_⟩
        rcases (hw a ho).2 with ⟨A, hA, _⟩ | hb
        · exact (not_uninit hA hd).elim
        · exact hb
    obtain ⟨es, hu, hde⟩ := buffer_unborn h rfl hbuf.2 hbuf.1 hi
    obtain ⟨_, _, _, _, _, _, _, _, es1, heq, _, _, hs', _⟩ :=
      create_stores (es := es) h hl (by rintro b ⟨⟩; exact hu) (by rintro b ⟨⟩; exact hbuf.1) hi
    cases heq
    rw [hA'.unique hs'] at hAg
    have hAg : (optAcc E g').getD Key.default = g := hAg
    unfold optAcc at hAg
    have hgp : g' ≠ E.program := by
      intro he
      rw [if_pos he] at hAg
      exact hg hAg.symm
    rw [if_neg hgp] at hAg
    obtain rfl : g' = g := hAg
    have hog : optAcc E g' = some g' := if_neg hgp
    rcases h3 with ⟨hgn, _⟩ | ⟨g2, hg2, h3⟩
    · rw [hog] at hgn; cases hgn
    · rw [hog] at hg2
      cases hg2
      have hga : g' ≠ a := by
        have h3' := h3
        unfold processGroup at h3'
        inv at h3'
        exact h3'.2.2.2.2.1
      have c1 : ((L2.setData a (createHeader d o au x)) g').data = (L g').data := by
        rw [Ledger.setData_other _ _ hga, (e2.data g' hga).1, (e1.data g' hga).1]
      have c2 : ((L2.setData a (createHeader d o au x)) g').owner = (L g').owner := by
        rw [Ledger.setData_other _ _ hga, (e2.data g' hga).2, (e1.data g' hga).2]
      have ig : IsAsset E.program L g' := by
        obtain ⟨_, i1, i2, i3⟩ := group_checks h3
        unfold assetAt at i3
        rw [c1] at i2 i3
        rw [c2] at i1
        exact ⟨i1, i2, i3⟩
      obtain ⟨G, hG, _⟩ := hw.stores ig
      obtain ⟨hsig, p, hp1, hp2⟩ := admits_group h3 (hG.congr c2 c1)
      have hs : (optAcc E ga).getD au = if ga = E.program then au else ga := by
        unfold optAcc
        split <;> rfl
      rw [hs] at hsig hp2
      exact ⟨_, ⟨au, o, ga, _, rfl, rfl⟩, hsig, G, p, hG, hp1, hp2⟩
  · obtain ⟨A, hA, hd⟩ := born_before hw h hl hi hA' fun x hx hh => hc ⟨x, hx, hh⟩
    have hne : A.group ≠ g := fun he => hn ((member_iff hw).mpr ⟨A, hA, he⟩)
    rcases refine hA h (hi.sound hA hd) with ⟨_, _, hgone⟩ | ⟨C, hC, hmv⟩
    · have := hA'.1.2.1
      rw [hgone] at this
      simp at this
    · obtain rfl := hC.unique hA'
      cases hmv with
      | join _ g' s rest ha hs hgd =>
        subst ha
        obtain rfl : g' = g := hAg
        obtain ⟨a, b, c, rest', he, hq⟩ := exec_group h
        cases he
        obtain ⟨G, hG, _⟩ := hw.stores (group_checks hq).2
        obtain ⟨hsig, p, hp1, hp2⟩ := admits_group hq hG
        exact ⟨s, ⟨rest, rfl⟩, hsig, G, p, hG, hp1, hp2⟩
      | leave => exact absurd hAg.symm hg
      | _ => exact absurd hAg hne

/-- Members were admitted. -/
theorem admitted {L0 : Ledger} {g : Key} (hw : WellFormed program L0) (hg : g ≠ Key.default)
    (hn : ¬ Member program L0 g k) (hs : ProperSteps program L0 L) (hm : Member program L g k) :
    ∃ E L1 L2 accts i s, E.program = program ∧ ProperSteps program L0 L1 ∧
      ¬ Member program L1 g k ∧ execute E L1 accts i = .ok L2 ∧
      AsksToJoin program accts g k s i ∧ Admits E L1 g s ∧ Belongs program g k L2 L := by
  induction hs with
  | refl => exact absurd hm hn
  | @tail L' L'' hs h ih =>
    by_cases hp : Member program L' g k
    · obtain ⟨E, L1, L2, accts, i, s, h1, h2, h3, h4, h5, h6, h7⟩ := ih hp
      exact ⟨E, L1, L2, accts, i, s, h1, h2, h3, h4, h5, h6, .tail h7 h hm⟩
    · have hw1 := wf_steps hw hs
      cases h with
      | foreign hf =>
        obtain ⟨h1, h2⟩ := foreign_asset hf hm.1
        refine absurd ⟨h1, ?_⟩ hp
        have := hm.2
        unfold assetAt at this ⊢
        rwa [h2] at this
      | instr E accts i hpr hl h hi =>
        subst hpr
        obtain ⟨s, h1, h2⟩ := joins hw1 h hl hi hg hp hm
        exact ⟨E, L', _, accts, i, s, rfl, hs, hp, h, h1, h2, .refl _ hm⟩

/-! ## Members -/

theorem length_memberBytes (g s : Key) : (memberBytes g s).length = 168 := by
  simp [memberBytes, g.2, s.2]

theorem memberBytes_clean (g s : Key) : CleanExts (memberBytes g s) [] := by
  refine ⟨168, .nil (Nat.le_of_eq (length_memberBytes g s).symm), ?_⟩
  unfold slice
  rw [List.drop_of_length_le (Nat.le_of_eq (length_memberBytes g s))]
  rfl

theorem slice_after {a b c : Bytes} {o n : Nat} (ha : a.length = o) (hb : b.length = n) :
    slice (a ++ (b ++ c)) o n = b := by
  unfold slice
  rw [List.drop_left' ha, List.take_left' hb]

theorem memberBytes_view (g s : Key) : (view (memberBytes g s)).group = g ∧
    (view (memberBytes g s)).delegate = s ∧ (view (memberBytes g s)).roles = 255 := by
  refine ⟨?_, ?_, ?_⟩
  · show keyAt _ 36 = g
    unfold keyAt memberBytes
    rw [List.append_assoc, List.append_assoc, List.append_assoc,
      slice_after (by simp) g.2, ofBytes_key]
  · show keyAt _ 100 = s
    unfold keyAt memberBytes
    rw [List.append_assoc, slice_after (by simp [g.2]) s.2, ofBytes_key]
  · show byteAt _ 132 = 255
    unfold byteAt memberBytes
    rw [List.getD_eq_getElem?_getD, List.append_assoc,
      List.getElem?_append_right (by simp [g.2])]
    simp [g.2, s.2]

/-- What burning a member does to the group. -/
theorem burn_shrinks {s r g : Key} {rest : List Key} {A G : Asset} {q : Bytes}
    (h : execute E L (k :: s :: r :: g :: rest) .burn = .ok L') (hs : Stores E.program L k A)
    (hA : A.group ≠ Key.default) (hG : Stores E.program L A.group G)
    (hq : lookup .grouping G.exts = some q) :
    A.group = g ∧ membersOf q ≠ 0 ∧ Stores E.program L' g (G.resized q (membersOf q - 1)) := by
  obtain ⟨a', s', r', g', rest', he, hp⟩ := exec_burn h
  cases he
  obtain ⟨L1, hb, hcl⟩ := burn_inv hp
  unfold burnGroup at hb
  rw [show hGroup (L k).data = A.group from hs.group_eq,
    show nullable A.group = some A.group from if_neg hA] at hb
  cases hopt : optAcc E g with
  | none => rw [hopt] at hb; cases hb
  | some ga =>
    have hga : ga = g := by
      unfold optAcc at hopt
      split at hopt
      · cases hopt
      · cases hopt; rfl
    subst hga
    rw [hopt] at hb
    simp only at hb
    inv at hb
    obtain ⟨e1, hne, y, hy, hb⟩ := hb
    rw [e1] at hG
    cases y with
    | none => cases hb
    | some y =>
      obtain ⟨off, q'⟩ := y
      inv at hb
      obtain ⟨gr, hr, hz, rfl⟩ := hb
      obtain ⟨c1, c2⟩ := close_other E hcl hne
      rw [Ledger.setData_same, members_eq hr] at c1
      rw [Ledger.setData_same] at c2
      obtain ⟨g1, g2⟩ := hG.replaceMut (L' := L') (q := setGroupSize q' (membersOf q' - 1))
        (by decide) hy (length_setGroupSize _ (readGrouping_ok hr).1) c2 c1
      rw [setGroupSize_eq] at g2
      obtain rfl : q = q' := Option.some.inj (hq.symm.trans g1)
      rw [members_eq hr] at hz
      exact ⟨e1, hz, g2⟩

end Verif
