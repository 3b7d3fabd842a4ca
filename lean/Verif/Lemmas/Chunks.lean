import Verif.Lemmas.Allocate

/-!
# The bytes that Allocate and Write leave in a buffer
-/

namespace Verif

open Verif.Spec

theorem zeros_add (a b : Nat) : zeros (a + b) = zeros a ++ zeros b := by
  unfold zeros; rw [List.replicate_append_replicate]

theorem length_zeros (n : Nat) : (zeros n).length = n := by unfold zeros; simp

theorem reallocBytes_grow {d : Bytes} {n : Nat} (h : d.length ≤ n) :
    reallocBytes d n = d ++ zeros (n - d.length) := by
  unfold reallocBytes
  rw [List.take_of_length_le h]

theorem splice_append (a b c : Bytes) : splice (a ++ b) a.length c = a ++ splice b 0 c := by
  unfold splice
  simp

theorem splice_zeros (c : Bytes) (n : Nat) : splice (zeros n) 0 c = c ++ zeros (n - c.length) := by
  unfold splice zeros
  simp

theorem length_headOf (off : Nat) (t : ExtType) (n : Nat) : (headOf off t n).length = 16 := by
  unfold headOf; simp [length_toLE]

theorem length_begun (base : Bytes) (t : ExtType) (n : Nat) (p : Bytes) :
    (begun base t n p).length = base.length + 16 + p.length := by
  unfold begun; simp [length_headOf, Nat.add_assoc]

section
variable {E : Env} {L L' : Ledger} {k : Key} {payer sys : Option Key} {t : ExtType}
  {base : Bytes} {es : List Extn}

/-- The account that the new extension is appended to: `base`, or nothing yet. -/
def Grows (d base : Bytes) : Prop := d = base ∨ (d = [] ∧ base = zeros 168)

theorem reallocBytes_grows {d : Bytes} {n : Nat} (h : Grows d base) (hn : base.length ≤ n) :
    reallocBytes d n = base ++ zeros (n - base.length) := by
  rcases h with rfl | ⟨rfl, rfl⟩
  · exact reallocBytes_grow hn
  · rw [length_zeros] at *
    rw [reallocBytes_grow (by simp), ← zeros_add]
    simp only [List.length_nil, List.nil_append]
    rw [show n - 0 = 168 + (n - 168) by omega]

theorem allocateSpace_exact {n : UInt32} {ex : Bool} {data : Bytes}
    (h : allocateSpace E L k payer sys n ex base.length data = .ok L')
    (hex : ex = false → (L k).data = []) (hg : Grows (L k).data base)
    (hd : data.length ≤ n.toNat) (hp : data.length < 4294967296) :
    (L' k).data = base ++ zeros ((if n.toNat = data.length
      then roundUp8 (base.length + 16 + n.toNat) else base.length + 16 + data.length)
        - base.length) := by
  have e16 : extLen = 16 := rfl
  have e32 : two32 = 4294967296 := rfl
  have hmod : data.length % two32 = data.length := Nat.mod_eq_of_lt (by omega)
  unfold allocateSpace at h
  simp only at h
  have hext : allocateExtended n base.length data =
      if n.toNat = data.length then roundUp8 (base.length + 16 + n.toNat)
      else base.length + 16 + data.length := by
    unfold allocateExtended
    rw [hmod]; rfl
  rw [hext] at h
  generalize hN : (if n.toNat = data.length then roundUp8 (base.length + 16 + n.toNat)
      else base.length + 16 + data.length) = N at *
  have hlt : base.length < N := by
    have := le_roundUp8 (base.length + 16 + n.toNat)
    rw [← hN]
    split <;> omega
  have hdl : (L k).data.length ≤ base.length := by
    rcases hg with h | ⟨h, _⟩
    · rw [h]; omega
    · rw [h]; simp
  rw [← reallocBytes_grows hg (by omega)]
  split at h
  · rename_i he
    obtain ⟨_, d1, _⟩ := createAccount_eff h
    rw [d1, hex he, reallocBytes_grow (by simp)]
    simp
  · rw [if_pos (Or.inl (by omega))] at h
    exact (resize_eff h).2.1

theorem headOf_zeros (m : Nat) (t : ExtType) (n : Nat) :
    headOf m t n = toLE 4 t.toU32 ++ toLE 4 n ++ toLE 4 (roundUp8 (m + 16 + n)) ++ zeros 4 := rfl

/-- Saving an extension at the end of the account. -/
theorem save_exact {x : ExtInput} {ex : Bool} {data : Bytes}
    (h : saveExtensionData E L k payer sys x ex base.length data = .ok L')
    (hex : ex = false → (L k).data = []) (hg : Grows (L k).data base)
    (hd : data.length ≤ x.length.toNat) (hp : data.length < 4294967296) :
    (data.length = x.length.toNat → (L' k).data = finished base x.ty data) ∧
    (data.length ≠ x.length.toNat → (L' k).data = begun base x.ty x.length.toNat data) := by
  have e16 : extLen = 16 := rfl
  unfold saveExtensionData at h
  inv at h
  obtain ⟨L1, h1, d1, h2, d2, h3, rfl⟩ := h
  rw [Ledger.setData_same]
  simp only
  rw [align8_eq, e16] at h2
  rw [e16] at h3
  have hD := allocateSpace_exact h1 hex hg hd hp
  generalize hK : (if x.length.toNat = data.length then roundUp8 (base.length + 16 + x.length.toNat)
      else base.length + 16 + data.length) - base.length = K at *
  have hru := le_roundUp8 (base.length + 16 + x.length.toNat)
  have hK16 : 16 + data.length ≤ K := by
    rw [← hK]
    split <;> omega
  rw [hD] at h2
  unfold writeHdr setHdr at h2
  split at h2
  · cases h2
  cases h2
  obtain ⟨rfl, _⟩ := copyData_ok h3
  have e1 : splice (base ++ zeros K) base.length (toLE 4 x.ty.toU32 ++ toLE 4 x.length.toNat ++
      toLE 4 (roundUp8 (base.length + 16 + x.length.toNat))) =
      (base ++ headOf base.length x.ty x.length.toNat) ++ zeros (K - 16) := by
    rw [splice_append, splice_zeros, headOf_zeros]
    have : K - (toLE 4 x.ty.toU32 ++ toLE 4 x.length.toNat ++
        toLE 4 (roundUp8 (base.length + 16 + x.length.toNat))).length = 4 + (K - 16) := by
      simp only [List.length_append, length_toLE]; omega
    rw [this, zeros_add]
    simp only [List.append_assoc]
  have e2 : base.length + 16 = (base ++ headOf base.length x.ty x.length.toNat).length := by
    rw [List.length_append, length_headOf]
  rw [e1, e2, splice_append, splice_zeros]
  constructor
  · intro he
    unfold finished begun
    rw [he]
    have : K - 16 - data.length = roundUp8 (base.length + 16 + x.length.toNat) -
        (base.length + 16 + x.length.toNat) := by
      rw [← hK, if_pos he.symm]; omega
    rw [← he] at this ⊢
    rw [this]
    simp only [List.append_assoc]
    rfl
  · intro he
    have : K - 16 - data.length = 0 := by
      rw [← hK, if_neg (fun h => he h.symm)]; omega
    rw [this]
    unfold begun zeros
    simp

/-- Allocate on an account without data. -/
theorem allocate_empty_exact {x : ExtInput} (h : processAllocate E L k payer sys x = .ok L')
    (hd : (L k).data = []) (hf : Fits x) :
    ((given x).length = x.length.toNat → (L' k).data = finished (zeros 168) x.ty (given x)) ∧
    ((given x).length ≠ x.length.toNat →
      (L' k).data = begun (zeros 168) x.ty x.length.toNat (given x)) := by
  obtain ⟨ex, off, h1, h2, h3⟩ := processAllocate_save h hf
  unfold allocateOffset at h1
  rw [hd] at h1
  cases h1
  have e : assetLen = (zeros 168).length := (length_zeros 168).symm
  rw [e] at h3
  exact save_exact h3 (fun _ => hd) (Or.inr ⟨hd, rfl⟩) h2 (given_fits hf)

/-- Allocate on a buffer that ends with its last extension. -/
theorem allocate_complete_exact {x : ExtInput} (h : processAllocate E L k payer sys x = .ok L')
    (hb : Blank (L k).data) (hpk : Packed (L k).data 168 es (L k).data.length)
    (hf : Fits x) (ht : x.ty ≠ .none) :
    ((given x).length = x.length.toNat → (L' k).data = finished (L k).data x.ty (given x)) ∧
    ((given x).length ≠ x.length.toNat →
      (L' k).data = begun (L k).data x.ty x.length.toNat (given x)) := by
  obtain ⟨ex, off, h1, h2, h3⟩ := processAllocate_save h hf
  have hends : Ends (L k).data (L k).data.length := Or.inl (by omega)
  have hhas : HasExts (L k).data es := ⟨_, hpk.walk, hends⟩
  unfold allocateOffset at h1
  simp only at h1
  rw [if_neg (by intro hn; have := hb.1; rw [hn] at this; simp at this)] at h1
  inv at h1
  obtain ⟨ho, hl, hdisc, c, h4, h5, r, h6, h7⟩ := h1
  have hoff : ex = true ∧ off = (L k).data.length := by
    rcases lastExtension_walk hpk.walk hends with ⟨g1, rfl⟩ | ⟨pre, t, p, m, rfl, _, g2, g3⟩
    · rw [g1] at h6
      cases h6
      cases h7
      have : (L k).data.length = 168 := by
        generalize (L k).data.length = n at hpk
        cases hpk; rfl
      exact ⟨rfl, this.symm⟩
    · rw [g3] at h6
      cases h6
      inv at h7
      obtain ⟨_, h8⟩ := h7
      cases h8
      exact ⟨rfl, rfl⟩
  obtain ⟨rfl, rfl⟩ := hoff
  exact save_exact h3 (by simp) (Or.inl rfl) h2 (given_fits hf)

/-- Appending to an unfinished extension. -/
theorem write_exact {pk sk : Key} {b p : Bytes} {n : Nat}
    (h : processWrite E L k pk sk ⟨false, b⟩ = .ok L')
    (hc : Pending (L k).data es t n p) (hd : (L k).data = begun base t n p)
    (hw : p.length + b.length ≤ n) :
    (p.length + b.length < n ∧ (L' k).data = begun base t n (p ++ b)) ∨
    (p.length + b.length = n ∧ ∃ q, onCreate t (p ++ b) none = .ok q ∧
      (L' k).data = finished base t q) := by
  obtain ⟨m', hp', hml, hlast⟩ := lastExtension_pending hc
  obtain ⟨hb, htt, m, g1, g2, g3, g4, g5, g6, g7⟩ := hc
  obtain rfl : m' = m := by omega
  clear hp' hml
  have hbl := length_begun base t n p
  rw [← hd, g5] at hbl
  obtain rfl : m' = base.length := by omega
  clear hbl
  have hru := le_roundUp8 (base.length + 16 + n)
  unfold processWrite at h
  inv at h
  obtain ⟨_, _, _, _, _, _, r, h6, h7⟩ := h
  rw [hlast] at h6
  cases h6
  inv at h7
  obtain ⟨_, L1, h1, D, h2, h3⟩ := h7
  obtain ⟨_, hd1, _⟩ := resize_eff h1
  rw [hd1] at h2
  simp only [Bool.false_eq_true, if_false] at h2 h3
  generalize hsz : (if (L k).data.length + b.length = base.length + 16 + n
    then roundUp8 (base.length + 16 + n) else (L k).data.length + b.length) = size at h2
  have hsz1 : (L k).data.length + b.length ≤ size := by
    rw [← hsz]
    split <;> omega
  obtain ⟨hfit, hD⟩ := memcpy_ok h2
  have hDe : D = begun base t n (p ++ b) ++ zeros (size - (base.length + 16 + (p ++ b).length)) := by
    rw [hD, reallocBytes_grow (by omega), splice_append, splice_zeros, g5, List.length_append, hd]
    unfold begun
    simp only [List.append_assoc]
    rw [show size - (base.length + 16 + p.length) - b.length =
      size - (base.length + 16 + (p.length + b.length)) by omega]
  have hDl : D.length = size := by
    rw [hDe, List.length_append, length_begun, length_zeros, List.length_append]; omega
  split at h3
  · rename_i hlt
    have hlt : D.length < base.length + 16 + n := hlt
    obtain rfl := pure_ok.mp h3
    rw [Ledger.setData_same]
    left
    have hne : ¬ ((L k).data.length + b.length = base.length + 16 + n) := by
      intro h
      rw [if_pos h] at hsz
      omega
    rw [if_neg hne] at hsz
    refine ⟨by omega, ?_⟩
    show D = _
    rw [hDe, List.length_append, show size - (base.length + 16 + (p.length + b.length)) = 0 by omega]
    unfold zeros
    simp
  · rename_i hge'
    have hge' : ¬ D.length < base.length + 16 + n := hge'
    right
    have hn : p.length + b.length = n := by
      by_contra hne
      rw [if_neg (by omega)] at hsz
      omega
    rw [if_pos (by omega)] at hsz
    refine ⟨hn, ?_⟩
    inv at h3
    obtain ⟨V, hV, rfl⟩ := h3
    rw [Ledger.setData_same]
    have hlow : ∀ i, i < base.length + 16 → D[i]? = (L k).data[i]? := by
      intro i hi
      rw [hDe, hd]
      unfold begun
      have hi' : i < (base ++ headOf base.length t n).length := by
        rw [List.length_append, length_headOf]; exact hi
      rw [List.append_assoc _ (p ++ b), List.getElem?_append_left hi', List.getElem?_append_left hi']
    have hlows : ∀ o c, o + c ≤ base.length + 16 → slice D o c = slice (L k).data o c :=
      fun o c hoc => slice_congr fun i hi => hlow _ (by omega)
    have hpD : Packed D 168 es base.length := g1.congr (by omega) fun i _ hi => hlow i (by omega)
    unfold writeValidate at hV
    have a2 := (congrArg leNat (hlows base.length 4 (by omega))).trans g2
    have a3 := (congrArg leNat (hlows (base.length + 4) 4 (by omega))).trans g3
    have a4 := (congrArg leNat (hlows (base.length + 8) 4 (by omega))).trans g4
    rw [lastExtension_tail htt hpD a2 a3 a4 (by omega) (by omega)] at hV
    simp only [bind, Except.bind] at hV
    rw [ofU32_toU32] at hV
    simp only at hV
    rw [if_neg (by omega)] at hV
    have hpl : base.length + 16 = (base ++ headOf base.length t n).length := by
      rw [List.length_append, length_headOf]
    have hdat : slice D (base.length + 16) n = p ++ b := by
      rw [hDe, hpl]
      unfold slice begun
      rw [List.append_assoc _ (p ++ b), List.drop_left, List.take_left' (by simp [hn])]
    rw [hdat] at hV
    cases ho : mapLife (onCreate t (p ++ b) none) with
    | error e => rw [ho] at hV; cases hV
    | ok q =>
      rw [ho] at hV
      rw [mapLife_ok] at ho
      have hql : q.length = n := by rw [onCreate_length ho, List.length_append, hn]
      have hVe : V = splice D (base.length + 16) q := by
        have : Except.ok (splice D (base.length + 16) q) = Except.ok (ε := Err) V := hV
        exact (Except.ok.inj this).symm
      refine ⟨q, ho, ?_⟩
      show V = _
      rw [hVe, hDe, hpl]
      unfold begun
      rw [List.append_assoc _ (p ++ b), splice_append]
      unfold finished begun splice
      rw [hql]
      simp only [List.length_append, hn, List.take_zero, List.nil_append, Nat.zero_add]
      rw [List.drop_left' (by simp [hn]), ← hsz]
      simp only [List.append_assoc]
      rfl

end
end Verif
