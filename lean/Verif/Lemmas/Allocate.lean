import Verif.Spec.Buffer
import Verif.Lemmas.CreateLayout

/-!
# Allocate on buffers
-/

namespace Verif

open Verif.Spec

variable {E : Env} {L L' : Ledger} {k : Key} {payer sys : Option Key} {d d' : Bytes}
  {es : List Extn} {t : ExtType} {m n : Nat} {p : Bytes}

theorem byteAt_of_length_le {i : Nat} (h : d.length ≤ i) : byteAt d i = 0 := by
  unfold byteAt
  rw [List.getD_eq_getElem?_getD, List.getElem?_eq_none h]; rfl

theorem byteAt_congr {i : Nat} (h : d'[i]? = d[i]?) : byteAt d' i = byteAt d i := by
  unfold byteAt
  rw [List.getD_eq_getElem?_getD, List.getD_eq_getElem?_getD, h]

theorem getElem?_eq_byteAt (d : Bytes) (i : Nat) :
    d[i]? = if i < d.length then some (byteAt d i) else none := by
  split
  · rename_i h; exact byteAt_eq_getElem h
  · rename_i h; exact List.getElem?_eq_none (by omega)

theorem byteAt_zeros (n i : Nat) : byteAt (zeros n) i = 0 := by
  unfold byteAt zeros
  rw [List.getD_eq_getElem?_getD, List.getElem?_replicate]
  split <;> rfl

theorem length_reallocBytes' (d : Bytes) (n : Nat) : (reallocBytes d n).length = n := by
  unfold reallocBytes zeros; simp; omega

/-- Resizing keeps bytes and fills up with zeros. -/
theorem byteAt_reallocBytes (d : Bytes) {n i : Nat} (h : i < n) :
    byteAt (reallocBytes d n) i = byteAt d i := by
  by_cases hi : i < d.length
  · exact byteAt_congr (getElem?_reallocBytes hi h)
  · rw [byteAt_of_length_le (d := d) (by omega)]
    unfold reallocBytes byteAt zeros
    rw [List.getD_eq_getElem?_getD, List.getElem?_append_right (by simp; omega),
      List.getElem?_replicate]
    split <;> rfl

/-- The data as if the account reached up to `m`. -/
def padTo (d : Bytes) (m : Nat) : Bytes := reallocBytes d (max m d.length)

theorem padTo_of_le (h : m ≤ d.length) : padTo d m = d := by
  unfold padTo
  rw [Nat.max_eq_right h]
  unfold reallocBytes zeros
  simp

theorem byteAt_padTo (d : Bytes) (m i : Nat) : byteAt (padTo d m) i = byteAt d i := by
  unfold padTo
  by_cases h : i < max m d.length
  · exact byteAt_reallocBytes d h
  · rw [byteAt_of_length_le (by rw [length_reallocBytes']; omega), byteAt_of_length_le (by omega)]

theorem length_padTo (d : Bytes) (m : Nat) : (padTo d m).length = max m d.length :=
  length_reallocBytes' _ _

/-- The account after making room. -/
theorem allocateSpace_data {n : UInt32} {ex : Bool}
    (h : allocateSpace E L k payer sys n ex m p = .ok L') (hex : ex = false → (L k).data = [])
    (hp : p.length < 4294967296) :
    (n.toNat = p.length → roundUp8 (m + 16 + n.toNat) ≤ (L' k).data.length) ∧
    (n.toNat ≠ p.length → (L' k).data.length = m + 16 + p.length) ∧
    ∀ i, i < (L' k).data.length → byteAt (L' k).data i = byteAt (L k).data i := by
  have e16 : extLen = 16 := rfl
  have e32 : two32 = 4294967296 := rfl
  have hmod : p.length % two32 = p.length := Nat.mod_eq_of_lt (by omega)
  unfold allocateSpace at h
  simp only at h
  have hext : allocateExtended n m p =
      if n.toNat = p.length then roundUp8 (m + 16 + n.toNat) else m + 16 + p.length := by
    unfold allocateExtended
    rw [hmod]; rfl
  rw [hmod] at h
  split at h
  · rename_i hx
    obtain ⟨_, d1, _⟩ := createAccount_eff h
    rw [d1]
    have hl : (zeros (allocateExtended n m p)).length = allocateExtended n m p := by simp [zeros]
    rw [hl, hext]
    refine ⟨fun he => by rw [if_pos he]; exact Nat.le_refl _, fun he => by rw [if_neg he],
      fun i _ => ?_⟩
    rw [byteAt_zeros, hex hx, byteAt_of_length_le (by simp)]
  · split at h
    · obtain ⟨_, d1, _⟩ := resize_eff h
      rw [d1, length_reallocBytes', hext]
      refine ⟨fun he => by rw [if_pos he]; exact Nat.le_refl _, fun he => by rw [if_neg he],
        fun i hi => byteAt_reallocBytes _ hi⟩
    · rename_i hc
      cases h
      rw [hext] at hc
      refine ⟨fun he => ?_, fun he => ?_, fun _ _ => rfl⟩
      · rw [if_pos he] at hc; omega
      · rw [if_neg he] at hc; omega

/-- Saving an extension behind the packed extensions `es`, which end at `m`. -/
theorem saveExtensionData_buffer {x : ExtInput} {ex : Bool} {data : Bytes}
    (h : saveExtensionData E L k payer sys x ex m data = .ok L')
    (hex : ex = false → (L k).data = [])
    (hb : ∀ i, i < 168 → byteAt (L k).data i = 0)
    (hpk : Packed (padTo (L k).data m) 168 es m) (hz : ∀ i, m ≤ i → byteAt (L k).data i = 0)
    (hn : x.length.toNat ≤ 10485760) (hm : m ≤ 100000000) (hd : data.length < 4294967296)
    (hle : data.length ≤ x.length.toNat) (ht : x.ty ≠ .none) :
    (data.length = x.length.toNat → Complete (L' k).data (es ++ [(x.ty, data)])) ∧
    (data.length ≠ x.length.toNat → Pending (L' k).data es x.ty x.length.toNat data) := by
  have e16 : extLen = 16 := rfl
  have hm168 := hpk.walk.le.1
  unfold saveExtensionData at h
  inv at h
  obtain ⟨L1, h1, d1, h2, d2, h3, rfl⟩ := h
  obtain ⟨s1, s2, s3⟩ := allocateSpace_data h1 hex hd
  rw [Ledger.setData_same]
  simp only
  rw [align8_eq, e16] at h2
  rw [e16] at h3
  obtain ⟨w1, w2, w3, w4, w5, w6⟩ := writeHdr_ok h2
  generalize hD : (L1 k).data = D at *
  have hfit : m + 16 + data.length ≤ D.length := by
    by_cases he : x.length.toNat = data.length
    · have := s1 he
      have := le_roundUp8 (m + 16 + x.length.toNat)
      omega
    · have := s2 he
      omega
  obtain ⟨rfl, _⟩ := copyData_ok h3
  have hfit1 : m + 16 + data.length ≤ d1.length := by omega
  have hout : ∀ i, i < m + 16 ∨ m + 16 + data.length ≤ i →
      (splice d1 (m + 16) data)[i]? = d1[i]? := fun i hi => getElem?_splice_outside hfit1 hi
  have hlen : (splice d1 (m + 16) data).length = D.length := by rw [length_splice hfit1, w2]
  have hlow : ∀ i, i < m → (splice d1 (m + 16) data)[i]? = D[i]? := fun i hi => by
    rw [hout i (by omega), w6 i (by omega)]
  have hhigh : ∀ i, m + 16 + data.length ≤ i → byteAt (splice d1 (m + 16) data) i = 0 := by
    intro i hi
    by_cases hi' : i < D.length
    · rw [byteAt_congr (hout i (by omega)), byteAt_congr (w6 i (by omega)), s3 i hi']
      exact hz i (by omega)
    · exact byteAt_of_length_le (by omega)
  have hblank : Blank (splice d1 (m + 16) data) := by
    refine ⟨by omega, fun i hi => ?_⟩
    rw [byteAt_congr (hlow i (by omega)), s3 i (by omega)]
    exact hb i hi
  have hpk' : Packed (splice d1 (m + 16) data) 168 es m := by
    refine hpk.congr (by omega) fun i _ hi => ?_
    rw [hlow i hi, getElem?_eq_byteAt, getElem?_eq_byteAt, if_pos (by omega),
      if_pos (by rw [length_padTo]; omega), byteAt_padTo, s3 i (by omega)]
  have hsl : ∀ j c, j + c ≤ 16 → slice (splice d1 (m + 16) data) (m + j) c = slice d1 (m + j) c :=
    fun j c hj => slice_congr fun i hi => hout _ (by omega)
  have e256 : (256 : Nat) ^ 4 = 4294967296 := by decide
  have htl : x.ty.toU32 < 256 ^ 4 := by cases x.ty <;> decide
  have hru : roundUp8 (m + 16 + x.length.toNat) < 4294967296 := by unfold roundUp8; omega
  have f0 : leNat (slice (splice d1 (m + 16) data) m 4) = x.ty.toU32 := by
    have := hsl 0 4 (by omega)
    simp only [Nat.add_zero] at this
    rw [this, w3, leNat_toLE_of_lt htl]
  have f1 : leNat (slice (splice d1 (m + 16) data) (m + 4) 4) = x.length.toNat := by
    rw [hsl 4 4 (by omega), w4, leNat_toLE_of_lt (by omega)]
  have f2 : leNat (slice (splice d1 (m + 16) data) (m + 8) 4) =
      roundUp8 (m + 16 + x.length.toNat) := by
    rw [hsl 8 4 (by omega), w5, leNat_toLE_of_lt (by omega)]
  have f3 : slice (splice d1 (m + 16) data) (m + 16) data.length = data :=
    slice_splice_same hfit1 rfl
  constructor
  · intro he
    have hs := s1 he.symm
    refine ⟨hblank, roundUp8 (m + 16 + data.length), ?_, fun i hi => hhigh i ?_⟩
    · refine packed_append.mpr ⟨m, hpk', Packed.cons ht f0 (by rw [f1, he]) (by rw [f2, he]) f3
        (Packed.nil ?_)⟩
      rw [hlen, he]; exact hs
    · have := le_roundUp8 (m + 16 + data.length); omega
  · intro he
    have hs := s2 (fun h => he h.symm)
    exact ⟨hblank, ht, m, hpk', f0, f1, f2, by omega, f3, hle⟩

/-! ## Lookups on buffers -/

theorem lastFrom_skip {off fuel : Nat} (h : Walk d off es m) (last : Option (Hdr × Nat)) :
    ∃ last', lastFrom d (es.length + fuel) off last = lastFrom d fuel m last' := by
  induction es generalizing off last with
  | nil => cases h; exact ⟨last, by simp⟩
  | cons x xs ih =>
    obtain ⟨t', p⟩ := x
    obtain ⟨h1, h2, h3, _, _, _, _, h4⟩ := h.head
    have : (List.length ((t', p) :: xs)) + fuel = (xs.length + fuel) + 1 := by
      simp only [List.length_cons]; omega
    obtain ⟨last', h'⟩ := ih h4 (some (hdrAt d off, off + extLen))
    refine ⟨last', ?_⟩
    rw [this, lastFrom, if_pos h1]
    simp only
    rw [h2, ← h']
    cases t' <;> first | exact absurd rfl h3 | rfl

/-- The header of the unfinished extension is the last one. -/
theorem lastExtension_tail (ht : t ≠ .none) (h1 : Packed d 168 es m)
    (h2 : leNat (slice d m 4) = t.toU32) (h3 : leNat (slice d (m + 4) 4) = n)
    (h4 : leNat (slice d (m + 8) 4) = roundUp8 (m + 16 + n)) (h5 : m + 16 ≤ d.length)
    (h6 : d.length ≤ roundUp8 (m + 16 + n)) :
    lastExtension d = .ok (some (⟨t.toU32, n, roundUp8 (m + 16 + n)⟩, m + 16)) := by
  have e16 : extLen = 16 := rfl
  have hlen := h1.walk.length_le
  have hru := le_roundUp8 (m + 16 + n)
  unfold lastExtension
  obtain ⟨f, hf⟩ : ∃ f, d.length + 1 = es.length + (f + 2) := ⟨d.length - 1 - es.length, by omega⟩
  obtain ⟨last', h'⟩ := lastFrom_skip (fuel := f + 2) h1.walk Option.none
  rw [hf, show assetLen = 168 from rfl, h', lastFrom, if_pos (by omega)]
  simp only
  have hh : hdrAt d m = ⟨t.toU32, n, roundUp8 (m + 16 + n)⟩ := by
    unfold hdrAt u32At; rw [h2, h3, h4]
  rw [hh]
  simp only
  rw [ofU32_toU32]
  have : lastFrom d (f + 1) (roundUp8 (m + 16 + n))
      (some (⟨t.toU32, n, roundUp8 (m + 16 + n)⟩, m + extLen)) =
      .ok (some (⟨t.toU32, n, roundUp8 (m + 16 + n)⟩, m + 16)) := by
    rw [lastFrom, if_neg (by omega), e16]
  rw [← this]
  cases t <;> first | exact absurd rfl ht | rfl

theorem lastExtension_pending (h : Pending d es t n p) :
    ∃ m, Packed d 168 es m ∧ d.length = m + 16 + p.length ∧
      lastExtension d = .ok (some (⟨t.toU32, n, roundUp8 (m + 16 + n)⟩, m + 16)) := by
  obtain ⟨_, ht, m, h1, h2, h3, h4, h5, h6, h7⟩ := h
  have hru := le_roundUp8 (m + 16 + n)
  exact ⟨m, h1, h5, lastExtension_tail ht h1 h2 h3 h4 (by omega) (by omega)⟩

theorem assetContains_pending {s : ExtType} (hs : s ≠ .none) (h : Pending d es t n p) :
    assetContains s d = .ok (decide (s = t ∨ s ∈ es.map (·.1))) := by
  obtain ⟨_, ht, m, h1, h2, h3, h4, h5, h6, h7⟩ := h
  have e16 : extLen = 16 := rfl
  have hlen := h1.walk.length_le
  have hru := le_roundUp8 (m + 16 + n)
  have hh : hdrAt d m = ⟨t.toU32, n, roundUp8 (m + 16 + n)⟩ := by
    unfold hdrAt u32At; rw [h2, h3, h4]
  unfold assetContains find
  rcases h1.walk.split s with ⟨g1, g2⟩ | ⟨pre, q, post, m', rfl, g2, g3, g4, g5⟩
  · obtain ⟨f, hf⟩ : ∃ f, d.length + 1 = es.length + (f + 2) :=
      ⟨d.length - 1 - es.length, by omega⟩
    rw [hf, show assetLen = 168 from rfl, findFrom_skip h1.walk g2, findFrom, if_pos (by omega)]
    simp only
    rw [hh]
    simp only
    rw [ofU32_toU32]
    have hni : s ∉ es.map (·.1) := lookup_eq_none.mp g1
    by_cases hst : t = s
    · subst hst
      rw [if_pos rfl]
      simp [bind, Except.bind, pure, Except.pure]
    · rw [if_neg (by simpa using hst), if_neg (by simpa using ht), findFrom, if_neg (by omega)]
      have : ¬ (s = t ∨ s ∈ es.map (·.1)) := by
        rintro (h | h)
        · exact hst h.symm
        · exact hni h
      rw [decide_eq_false this]; rfl
  · have hl' := g4.length_le
    have hl5 := g5.le
    obtain ⟨f, hf⟩ : ∃ f, d.length + 1 = pre.length + (f + 1) :=
      ⟨d.length - pre.length, by omega⟩
    obtain ⟨q1, q2, _⟩ := g5.head
    rw [hf, show assetLen = 168 from rfl, findFrom_skip g4 g2, findFrom, if_pos q1]
    simp only
    rw [q2, if_pos rfl]
    simp [bind, Except.bind, pure, Except.pure]

theorem assetContains_walk {s : ExtType} (hs : s ≠ .none) (h : HasExts d es) :
    assetContains s d = .ok (decide (s ∈ es.map (·.1))) := by
  obtain ⟨e, h, he⟩ := h
  unfold assetContains
  rcases find_walk h he hs with ⟨h1, _, h3⟩ | ⟨pre, q, post, m, rfl, _, h3, h4, h5, h6⟩
  · rw [h3]
    have := lookup_eq_none.mp h1
    simp [bind, Except.bind, pure, Except.pure, this]
  · rw [h6]
    simp [bind, Except.bind, pure, Except.pure]

theorem leNat_zero {b : Bytes} (h : ∀ x ∈ b, x = 0) : leNat b = 0 := by
  induction b with
  | nil => rfl
  | cons x xs ih =>
    rw [leNat, ih fun y hy => h y (by simp [hy]), h x (by simp)]; rfl

theorem leNat_slice_zero {o c : Nat} (h : ∀ i, o ≤ i → byteAt d i = 0) :
    leNat (slice d o c) = 0 := by
  apply leNat_zero
  intro x hx
  obtain ⟨i, hi, rfl⟩ := List.getElem_of_mem hx
  have := getElem?_slice d o c i
  rw [List.getElem?_eq_getElem hi] at this
  split at this
  · rw [getElem?_eq_byteAt] at this
    split at this
    · rw [Option.some.inj this]; exact h _ (by omega)
    · cases this
  · cases this

theorem Spec.Complete.clean (h : Complete d es) : CleanExts d es := by
  obtain ⟨_, e, h1, h2⟩ := h
  exact ⟨e, h1, leNat_slice_zero h2⟩

theorem given_fits {x : ExtInput} (h : Fits x) : (given x).length < 4294967296 := by
  unfold given
  cases hd : x.data with
  | none => simp
  | some p => simpa using h.2 p hd

/-- What Allocate makes of an account that stores `es`. -/
def Allocated (d : Bytes) (es : List Extn) (x : ExtInput) : Prop :=
  x.ty ∉ es.map (·.1) ∧ (given x).length ≤ x.length.toNat ∧
  ((given x).length = x.length.toNat → Complete d (es ++ [(x.ty, given x)])) ∧
  ((given x).length ≠ x.length.toNat → Pending d es x.ty x.length.toNat (given x))

theorem processAllocate_save {x : ExtInput} (h : processAllocate E L k payer sys x = .ok L')
    (hf : Fits x) :
    ∃ ex off, allocateOffset E L k x.ty = .ok (ex, off) ∧
      (given x).length ≤ x.length.toNat ∧
      saveExtensionData E L k payer sys x ex off (given x) = .ok L' := by
  have hg := given_fits hf
  have e32 : two32 = 4294967296 := rfl
  unfold processAllocate at h
  inv at h
  obtain ⟨_, ⟨ex, off⟩, h1, h⟩ := h
  refine ⟨ex, off, h1, ?_⟩
  unfold given at *
  cases hd : x.data with
  | none =>
    rw [hd] at h
    exact ⟨by simp, h⟩
  | some p =>
    rw [hd] at h hg
    inv at h
    obtain ⟨h2, h3⟩ := h
    simp only [Option.getD_some] at hg ⊢
    rw [Nat.mod_eq_of_lt (by omega)] at h2
    exact ⟨h2, h3⟩

theorem allocate_empty {x : ExtInput} (h : processAllocate E L k payer sys x = .ok L')
    (hd : (L k).data = []) (hf : Fits x) (ht : x.ty ≠ .none) : Allocated (L' k).data [] x := by
  obtain ⟨ex, off, h1, h2, h3⟩ := processAllocate_save h hf
  unfold allocateOffset at h1
  rw [hd] at h1
  cases h1
  obtain ⟨q1, q2⟩ := saveExtensionData_buffer (es := []) h3 (fun _ => hd)
    (fun i _ => by rw [hd]; exact byteAt_of_length_le (by simp))
    (Packed.nil (by rw [length_padTo, hd]; decide))
    (fun i _ => by rw [hd]; exact byteAt_of_length_le (by simp)) hf.1 (by decide)
    (given_fits hf) h2 ht
  exact ⟨by simp, h2, by simpa using q1, q2⟩

theorem allocate_complete {x : ExtInput} (h : processAllocate E L k payer sys x = .ok L')
    (hc : Complete (L k).data es) (hmax : (L k).data.length ≤ 50000000) (hf : Fits x)
    (ht : x.ty ≠ .none) : Allocated (L' k).data es x := by
  obtain ⟨ex, off, h1, h2, h3⟩ := processAllocate_save h hf
  have hcl := hc.clean
  obtain ⟨hb, e, hp, hz⟩ := hc
  have hle := hp.walk.le
  have hends : Ends (L k).data e := Or.inr (leNat_slice_zero hz)
  unfold allocateOffset at h1
  simp only at h1
  rw [if_neg (by intro hn; have := hb.1; rw [hn] at this; simp at this)] at h1
  inv at h1
  obtain ⟨ho, hl, hdisc, c, h4, h5, r, h6, h7⟩ := h1
  rw [assetContains_walk ht hcl.hasExts] at h4
  cases h4
  have hni : x.ty ∉ es.map (·.1) := by simpa using h5
  have hoff : ex = true ∧ off = e := by
    rcases lastExtension_walk hp.walk hends with ⟨g1, rfl⟩ | ⟨pre, t, p, m, rfl, _, g2, g3⟩
    · rw [g1] at h6
      cases h6
      cases h7
      cases hp
      exact ⟨rfl, rfl⟩
    · rw [g3] at h6
      cases h6
      inv at h7
      obtain ⟨_, h8⟩ := h7
      cases h8
      exact ⟨rfl, rfl⟩
  obtain ⟨rfl, rfl⟩ := hoff
  obtain ⟨q1, q2⟩ := saveExtensionData_buffer (es := es) h3 (by simp) hb.2
    (by rw [padTo_of_le hle.2]; exact hp) hz hf.1 (by omega) (given_fits hf) h2 ht
  exact ⟨hni, h2, q1, q2⟩

theorem Packed.padTo (h : Packed d 168 es m) (n : Nat) : Packed (padTo d n) 168 es m := by
  have hle := h.walk.le
  refine h.congr (by rw [length_padTo]; omega) fun i _ hi => ?_
  rw [getElem?_eq_byteAt, getElem?_eq_byteAt, if_pos (by rw [length_padTo]; omega),
    if_pos (by omega), byteAt_padTo]

/-- A buffer whose last extension has all its data, but no padding yet. -/
theorem allocate_pending {x : ExtInput} (h : processAllocate E L k payer sys x = .ok L')
    (hc : Pending (L k).data es t n p) (hmax : (L k).data.length ≤ 50000000) (hf : Fits x)
    (ht : x.ty ≠ .none) : p.length = n ∧ Allocated (L' k).data (es ++ [(t, p)]) x := by
  obtain ⟨ex, off, h1, h2, h3⟩ := processAllocate_save h hf
  have hcon := assetContains_pending ht hc
  obtain ⟨m', hp', hml, hlast⟩ := lastExtension_pending hc
  obtain ⟨hb, htt, m, g1, g2, g3, g4, g5, g6, g7⟩ := hc
  obtain rfl : m' = m := by omega
  unfold allocateOffset at h1
  simp only at h1
  rw [if_neg (by intro hn; have := hb.1; rw [hn] at this; simp at this)] at h1
  inv at h1
  obtain ⟨ho, hl, hdisc, c, h4, h5, r, h6, h7⟩ := h1
  rw [hcon] at h4
  cases h4
  have hni : x.ty ∉ (es ++ [(t, p)]).map (·.1) := by
    simp only [List.map_append, List.map_cons, List.map_nil, List.mem_append, List.mem_singleton]
    have h5' : ¬ (x.ty = t ∨ x.ty ∈ es.map (·.1)) := by simpa using h5
    rintro (h | h)
    · exact h5' (Or.inr h)
    · exact h5' (Or.inl h)
  rw [hlast] at h6
  cases h6
  inv at h7
  obtain ⟨h8, h9⟩ := h7
  cases h9
  have hpn : p.length = n := by omega
  refine ⟨hpn, ?_⟩
  subst hpn
  have hru := le_roundUp8 (m' + 16 + p.length)
  have hru2 : roundUp8 (m' + 16 + p.length) < m' + 16 + p.length + 8 := by unfold roundUp8; omega
  have hpk : Packed (Verif.padTo (L k).data (roundUp8 (m' + 16 + p.length))) 168
      (es ++ [(t, p)]) (roundUp8 (m' + 16 + p.length)) := by
    have hs : ∀ o c, o + c ≤ m' + 16 + p.length →
        slice (Verif.padTo (L k).data (roundUp8 (m' + 16 + p.length))) o c =
          slice (L k).data o c := by
      intro o c hoc
      refine slice_congr fun i hi => ?_
      rw [getElem?_eq_byteAt, getElem?_eq_byteAt, if_pos (by rw [length_padTo]; omega),
        if_pos (by omega), byteAt_padTo]
    refine packed_append.mpr ⟨m', Packed.padTo g1 _, Packed.cons htt ?_ ?_ ?_ ?_ (Packed.nil ?_)⟩
    · rw [hs _ _ (by omega)]; exact g2
    · rw [hs _ _ (by omega)]; exact g3
    · rw [hs _ _ (by omega)]; exact g4
    · rw [hs _ _ (by omega)]; exact g6
    · rw [length_padTo]; omega
  obtain ⟨q1, q2⟩ := saveExtensionData_buffer (es := es ++ [(t, p)]) h3 (by simp) hb.2
    hpk (fun i hi => byteAt_of_length_le (by omega)) hf.1 (by omega) (given_fits hf) h2 ht
  exact ⟨hni, h2, q1, q2⟩

/-! ## Write -/

theorem memcpy_ok {o : Nat} {b : Bytes} (h : memcpy d o b = .ok d') :
    o + b.length ≤ d.length ∧ d' = splice d o b := by
  unfold memcpy at h
  split at h
  · cases h
  · split at h
    · cases h
    · cases h; exact ⟨by omega, rfl⟩

/-- The data an unfinished extension has after a write. -/
def written (x : WriteInput) (p : Bytes) : Bytes := if x.overwrite then x.bytes else p ++ x.bytes

theorem slice_add (d : Bytes) (o a b : Nat) :
    slice d o (a + b) = slice d o a ++ slice d (o + a) b := by
  unfold slice
  rw [List.take_add, List.drop_drop]

/-- Write on an unfinished extension, within its declared length. -/
theorem write_pending {pk sk : Key} {x : WriteInput} (h : processWrite E L k pk sk x = .ok L')
    (hc : Pending (L k).data es t n p) (hw : (written x p).length ≤ n) :
    ((written x p).length < n ∧ Pending (L' k).data es t n (written x p)) ∨
    ((written x p).length = n ∧ ∃ q, onCreate t (written x p) none = .ok q ∧
      if x.overwrite then Pending (L' k).data es t n q
      else Complete (L' k).data (es ++ [(t, q)])) := by
  obtain ⟨m', hp', hml, hlast⟩ := lastExtension_pending hc
  obtain ⟨hb, htt, m, g1, g2, g3, g4, g5, g6, g7⟩ := hc
  obtain rfl : m' = m := by omega
  clear hp' hml
  have hm := g1.walk.le.1
  have hru := le_roundUp8 (m' + 16 + n)
  unfold processWrite at h
  inv at h
  obtain ⟨_, _, _, _, _, _, r, h6, h7⟩ := h
  rw [hlast] at h6
  cases h6
  inv at h7
  obtain ⟨_, L1, h1, D, h2, h3⟩ := h7
  obtain ⟨_, hd1, _⟩ := resize_eff h1
  rw [hd1] at h2
  generalize hsz : (if x.overwrite = true then m' + 16 + x.bytes.length
    else if (L k).data.length + x.bytes.length = m' + 16 + n then roundUp8 (m' + 16 + n)
    else (L k).data.length + x.bytes.length) = size at h2
  obtain ⟨hfit, hD⟩ := memcpy_ok h2
  rw [length_reallocBytes'] at hfit
  have hDl : D.length = size := by rw [hD, length_splice (by rw [length_reallocBytes']; exact hfit),
    length_reallocBytes']
  -- the length after the write
  have hsize : (size = m' + 16 + (written x p).length ∧
        (x.overwrite = false → (written x p).length ≠ n)) ∨
      (x.overwrite = false ∧ (written x p).length = n ∧ size = roundUp8 (m' + 16 + n)) := by
    unfold written at *
    by_cases ho : x.overwrite = true
    · rw [if_pos ho] at hsz
      left
      rw [if_pos ho]
      exact ⟨hsz.symm, fun h => by rw [h] at ho; cases ho⟩
    · have ho' : x.overwrite = false := by simpa using ho
      rw [if_neg ho] at hsz hw ⊢
      rw [List.length_append] at *
      split at hsz
      · right; exact ⟨ho', by omega, hsz.symm⟩
      · left; exact ⟨by omega, fun _ => by omega⟩
  have hge : m' + 16 + (written x p).length ≤ size := by
    rcases hsize with h | h <;> omega
  have hsle : size ≤ roundUp8 (m' + 16 + n) := by
    rcases hsize with h | h <;> omega
  -- bytes before the data
  have hlow : ∀ i, i < m' + 16 → D[i]? = (L k).data[i]? := by
    intro i hi
    rw [hD, getElem?_splice_outside (by rw [length_reallocBytes']; exact hfit)
      (by split <;> omega), getElem?_reallocBytes (by omega) (by omega)]
  have hlows : ∀ o c, o + c ≤ m' + 16 → slice D o c = slice (L k).data o c :=
    fun o c hoc => slice_congr fun i hi => hlow _ (by omega)
  -- the data
  have hdat : slice D (m' + 16) (written x p).length = written x p := by
    unfold written at *
    by_cases ho : x.overwrite = true
    · rw [if_pos ho, hD, if_pos ho]
      exact slice_splice_same (by rw [length_reallocBytes']; rw [if_pos ho] at hfit; exact hfit) rfl
    · simp only [if_neg ho] at *
      rw [List.length_append, slice_add]
      congr 1
      · rw [← g6, length_slice (by omega)]
        refine slice_congr fun i hi => ?_
        rw [hD, getElem?_splice_outside (by rw [length_reallocBytes']; exact hfit) (by omega),
          getElem?_reallocBytes (by omega) (by rw [List.length_append] at hge; omega)]
      · rw [hD, ← g5]
        exact slice_splice_same (by rw [length_reallocBytes']; exact hfit) rfl
  have hpD : Packed D 168 es m' := g1.congr (by omega) fun i _ hi => hlow i (by omega)
  have f0 : leNat (slice D m' 4) = t.toU32 := by rw [hlows _ _ (by omega)]; exact g2
  have f1 : leNat (slice D (m' + 4) 4) = n := by rw [hlows _ _ (by omega)]; exact g3
  have f2 : leNat (slice D (m' + 8) 4) = roundUp8 (m' + 16 + n) := by
    rw [hlows _ _ (by omega)]; exact g4
  have hbD : Blank D := ⟨by omega, fun i hi => by
    rw [byteAt_congr (hlow i (by omega))]; exact hb.2 i hi⟩
  split at h3
  · rename_i hlt
    have hlt : D.length < m' + 16 + n := hlt
    obtain rfl := pure_ok.mp h3
    rw [Ledger.setData_same]
    left
    rcases hsize with ⟨h, _⟩ | ⟨_, _, h⟩
    · exact ⟨by omega, hbD, htt, m', hpD, f0, f1, f2, (show D.length = _ by omega), hdat, hw⟩
    · omega
  · rename_i hge'
    have hge' : ¬ D.length < m' + 16 + n := hge'
    right
    have hwn : (written x p).length = n := by
      rcases hsize with ⟨h, _⟩ | ⟨_, h, _⟩
      · omega
      · exact h
    refine ⟨hwn, ?_⟩
    inv at h3
    obtain ⟨V, hV, rfl⟩ := h3
    rw [Ledger.setData_same]
    unfold writeValidate at hV
    rw [lastExtension_tail htt hpD f0 f1 f2 (by omega) (by omega)] at hV
    simp only [bind, Except.bind] at hV
    rw [ofU32_toU32] at hV
    simp only at hV
    rw [if_neg (by omega)] at hV
    rw [hwn] at hdat
    rw [hdat] at hV
    cases ho : mapLife (onCreate t (written x p) none) with
    | error e => rw [ho] at hV; cases hV
    | ok q =>
      rw [ho] at hV
      rw [mapLife_ok] at ho
      have hql : q.length = n := by rw [onCreate_length ho, hwn]
      have hVe : V = splice D (m' + 16) q := by
        have : Except.ok (splice D (m' + 16) q) = Except.ok (ε := Err) V := hV
        exact (Except.ok.inj this).symm
      have hqfit : m' + 16 + q.length ≤ D.length := by omega
      have hVl : V.length = D.length := by rw [hVe, length_splice hqfit]
      have hVlow : ∀ i, i < m' + 16 → V[i]? = D[i]? := fun i hi => by
        rw [hVe, getElem?_splice_outside hqfit (Or.inl hi)]
      have hVs : ∀ o c, o + c ≤ m' + 16 → slice V o c = slice D o c :=
        fun o c hoc => slice_congr fun i hi => hVlow _ (by omega)
      have hVq : slice V (m' + 16) q.length = q := by rw [hVe]; exact slice_splice_same hqfit rfl
      have hVb : Blank V := ⟨by rw [hVl]; exact hbD.1, fun i hi => by
        rw [byteAt_congr (hVlow i (by omega))]; exact hbD.2 i hi⟩
      have hpV : Packed V 168 es m' := hpD.congr (by omega) fun i _ hi => hVlow i (by omega)
      have v0 : leNat (slice V m' 4) = t.toU32 := by rw [hVs _ _ (by omega)]; exact f0
      have v1 : leNat (slice V (m' + 4) 4) = n := by rw [hVs _ _ (by omega)]; exact f1
      have v2 : leNat (slice V (m' + 8) 4) = roundUp8 (m' + 16 + n) := by
        rw [hVs _ _ (by omega)]; exact f2
      refine ⟨q, ho, ?_⟩
      rcases hsize with ⟨h, h'⟩ | ⟨h', _, h⟩
      · have hov : x.overwrite = true := by
          cases hx : x.overwrite with
          | true => rfl
          | false => exact absurd hwn (h' hx)
        rw [if_pos hov]
        exact ⟨hVb, htt, m', hpV, v0, v1, v2, by simp only; omega, hVq, by omega⟩
      · rw [if_neg (by rw [h']; simp)]
        refine ⟨hVb, roundUp8 (m' + 16 + n), packed_append.mpr ⟨m', hpV, ?_⟩, fun i hi =>
          byteAt_of_length_le (by simp only; omega)⟩
        have hnil : Packed V (roundUp8 (m' + 16 + q.length)) [] (roundUp8 (m' + 16 + q.length)) :=
          Packed.nil (by rw [hql]; omega)
        have := Packed.cons htt v0 (by rw [v1, hql]) (by rw [v2, hql]) hVq hnil
        rw [hql] at this
        exact this

/-! ## Sizes -/

theorem resize_bound {size : Nat} (h : resize E L size k payer sys = .ok L')
    (hb : (L k).data.length ≤ E.origLen k + maxIncrease) :
    (L' k).data.length ≤ E.origLen k + maxIncrease := by
  have hd := (resize_eff h).2.1
  unfold resize at h
  inv at h
  obtain ⟨L1, h1, h2⟩ := h
  rw [hd, length_reallocBytes']
  unfold realloc at h2
  split at h2
  · rename_i he
    cases h2
    rw [hd, length_reallocBytes'] at he
    have h1' : (L' k).data = (L k).data := by
      unfold resizeLamports at h1
      split at h1
      · exact (resizeRefund_eff h1).2.1
      · exact (resizeFund_eff h1).2.1
    have := congrArg List.length h1'
    rw [hd, length_reallocBytes'] at this
    omega
  · split at h2
    · cases h2
    · omega

theorem createAccount_bound {space : Nat} (h : createAccount E L k payer sys space = .ok L') :
    space ≤ maxIncrease := by
  unfold createAccount at h
  cases payer with
  | none => cases h
  | some p =>
    inv at h
    obtain ⟨_, h⟩ := h
    cases sys with
    | none => cases h
    | some s =>
      inv at h
      obtain ⟨_, h⟩ := h
      unfold systemCreate at h
      split at h
      · rename_i hc; exact hc.2.2.2.2.2.2.2.2.2.2.2.1
      · cases h

theorem processAllocate_bound {x : ExtInput} (h : processAllocate E L k payer sys x = .ok L')
    (hb : (L k).data.length ≤ E.origLen k + maxIncrease) :
    (L' k).data.length ≤ E.origLen k + maxIncrease := by
  have key : ∀ ex off data, saveExtensionData E L k payer sys x ex off data = .ok L' →
      (L' k).data.length ≤ E.origLen k + maxIncrease := by
    intro ex off data h
    unfold saveExtensionData at h
    inv at h
    obtain ⟨L1, h1, d1, h2, d2, h3, rfl⟩ := h
    rw [Ledger.setData_same]
    have hl : d2.length = (L1 k).data.length := by
      obtain ⟨_, w2, _⟩ := writeHdr_ok h2
      obtain ⟨rfl, hc⟩ := copyData_ok h3
      rcases hc with rfl | hc
      · rw [splice_nil, w2]
      · rw [length_splice hc, w2]
    simp only
    rw [hl]
    unfold allocateSpace at h1
    simp only at h1
    split at h1
    · have hb' := createAccount_bound h1
      obtain ⟨_, q, _⟩ := createAccount_eff h1
      rw [q]
      simp only [zeros, List.length_replicate]
      omega
    · split at h1
      · exact resize_bound h1 hb
      · cases h1; exact hb
  unfold processAllocate at h
  inv at h
  obtain ⟨_, ⟨ex, off⟩, _, h⟩ := h
  cases hd : x.data with
  | none => rw [hd] at h; exact key _ _ _ h
  | some p => rw [hd] at h; inv at h; exact key _ _ _ h.2

/-! ## The allocation loop of Create -/

theorem Spec.AllWritten.blank (h : AllWritten d es) : Blank d := by
  rcases h with h | ⟨_, _, _, _, h⟩ <;> exact h.1

theorem allocate_written {x : ExtInput} (h : processAllocate E L k payer sys x = .ok L')
    (hc : AllWritten (L k).data es) (hmax : (L k).data.length ≤ 50000000) (hf : Fits x)
    (ht : x.ty ≠ .none) : Allocated (L' k).data es x := by
  rcases hc with hc | ⟨pre, t, p, rfl, hc⟩
  · exact allocate_complete h hc hmax hf ht
  · exact (allocate_pending h hc hmax hf ht).2

/-- A walk through the first extensions leads to the place where the others start. -/
theorem Spec.Walk.prefix {es' : List Extn} {off e' : Nat} (h : Walk d off es m)
    (h' : Walk d off es' e') (he : Ends d e') :
    ∃ rest, es' = es ++ rest ∧ Walk d m rest e' := by
  induction h generalizing es' with
  | nil => exact ⟨es', rfl, h'⟩
  | @cons off bnd e t p rest ht h0 h1 h2 hb hp hr ih =>
    have hle := hr.le
    cases h' with
    | nil hl =>
      exfalso
      rcases he with he | he
      · omega
      · rw [h0] at he; exact toU32_ne_zero ht he
    | cons ht' h0' h1' h2' hb' hp' hr' =>
      rw [h2] at h2'; subst h2'
      rw [h0] at h0'
      obtain rfl := toU32_inj h0'
      rw [h1] at h1'
      rw [h1', hp'] at hp
      subst hp
      obtain ⟨rest', rfl, hw⟩ := ih hr'
      exact ⟨rest', rfl, hw⟩

/-- An unfinished extension is not accepted by Create. -/
theorem pending_hasExts {es' : List Extn} (h : Pending d es t n p) (h' : HasExts d es') :
    p.length = n ∧ es' = es ++ [(t, p)] ∧ Complete d es' := by
  obtain ⟨hb, ht, m, h1, h2, h3, h4, h5, h6, h7⟩ := h
  obtain ⟨e', w', n'⟩ := h'
  obtain ⟨rest, rfl, hr⟩ := h1.walk.prefix w' n'
  have hru := le_roundUp8 (m + 16 + n)
  cases hr with
  | nil hl =>
    exfalso
    rcases n' with he | he
    · omega
    · rw [h2] at he; exact toU32_ne_zero ht he
  | @cons _ bnd _ t' q rest' ht' h0' h1' h2' hb' hp' hr' =>
    have hle := hr'.le
    rw [h4] at h2'
    rw [h3] at h1'
    rw [h2] at h0'
    obtain rfl := toU32_inj h0'
    have hpn : p.length = n := by omega
    have hbd : bnd = d.length := by omega
    obtain rfl : p = q := by rw [← h6, hpn, h1']; exact hp'
    have hrest : rest' = [] := by
      cases hr' with
      | nil => rfl
      | cons _ _ _ _ hb2 _ hr2 =>
        have := hr2.le
        omega
    subst hrest
    refine ⟨hpn, rfl, hb, d.length, packed_append.mpr ⟨m, h1, ?_⟩, fun i hi =>
      byteAt_of_length_le hi⟩
    have hnil : Packed d (roundUp8 (m + 16 + p.length)) [] (roundUp8 (m + 16 + p.length)) :=
      Packed.nil (by rw [hpn]; omega)
    have := Packed.cons ht h2 (by rw [h3, hpn]) (by rw [h4, hpn]) h6 hnil
    rw [hpn, h2', hbd] at this
    exact this

/-- The allocation loop of Create on a buffer, when the result is a valid extension area: it
appends the given extensions, all of them complete. -/
theorem allocateAll_buffer {xs : List ExtInput} {L2 : Ledger} {es0 : List Extn}
    (h : allocateAll E k payer sys xs L = .ok L2) (hc : AllWritten (L k).data es)
    (hB : E.origLen k ≤ 10485760) (hl : (L k).data.length ≤ E.origLen k + maxIncrease)
    (hx : ∀ x ∈ xs, Fits x ∧ x.ty ≠ .none) (hr : HasExts (L2 k).data es0) :
    es0 = es ++ xs.map (fun x => (x.ty, given x)) ∧ Complete (L2 k).data es0 ∧
      (∀ x ∈ xs, (given x).length = x.length.toNat) ∧
      ((es.map (·.1)).Nodup → (es0.map (·.1)).Nodup) := by
  have e1 : maxIncrease = 10240 := rfl
  induction xs generalizing L es with
  | nil =>
    cases h
    rcases hc with hc | ⟨pre, t, p, rfl, hc⟩
    · obtain rfl := hc.clean.hasExts.unique hr
      exact ⟨by simp, hc, by simp, id⟩
    · obtain ⟨_, rfl, q⟩ := pending_hasExts hc hr
      exact ⟨by simp, q, by simp, id⟩
  | cons x xs ih =>
    rw [allocateAll] at h
    inv at h
    obtain ⟨L1, h1, h2⟩ := h
    obtain ⟨hf, ht⟩ := hx x (by simp)
    obtain ⟨hni, hle, hful, hpart⟩ := allocate_written h1 hc (by omega) hf ht
    have hb1 := processAllocate_bound h1 hl
    have hfull : (given x).length = x.length.toNat := by
      by_contra hne
      have hp := hpart hne
      cases xs with
      | nil =>
        cases h2
        exact hne (pending_hasExts hp hr).1
      | cons y ys =>
        rw [allocateAll] at h2
        inv at h2
        obtain ⟨L3, h3, _⟩ := h2
        obtain ⟨hf', ht'⟩ := hx y (by simp)
        exact hne (allocate_pending h3 hp (by omega) hf' ht').1
    obtain ⟨q1, q2, q3, q4⟩ := ih h2 (Or.inl (hful hfull)) hb1 fun y hy => hx y (by simp [hy])
    refine ⟨by rw [q1]; simp, q2, ?_, fun hn => q4 ?_⟩
    · intro y hy
      rcases List.mem_cons.mp hy with rfl | hy
      · exact hfull
      · exact q3 y hy
    · rw [List.map_append, List.nodup_append]
      refine ⟨hn, by simp, ?_⟩
      intro a ha b hb
      simp only [List.map_cons, List.map_nil, List.mem_singleton] at hb
      subst hb
      rintro rfl
      exact hni ha

end Verif
