import Verif.Spec.Mints
import Verif.Lemmas.Edits
import Verif.Lemmas.Mint

/-!
# Building and creating an asset is not refused
-/

namespace Verif

open Verif.Spec

section
variable {E : Env} {L L' L'' : Ledger} {k p : Key} {total size : Nat} {es : List Extn}

/-- Lamports moved between `k` and the wallet `p`; nobody else noticed. -/
structure Paid (L L' : Ledger) (k p : Key) : Prop where
  owner : (L' p).owner = (L p).owner
  data : (L' p).data = (L p).data
  sum : (L' p).lamports + (L' k).lamports = (L p).lamports + (L k).lamports
  others : ∀ x, x ≠ k → x ≠ p → L' x = L x

theorem Paid.refl : Paid L L k p := ⟨rfl, rfl, rfl, fun _ _ _ => rfl⟩

theorem Paid.trans (h : Paid L L' k p) (h' : Paid L' L'' k p) : Paid L L'' k p :=
  ⟨h'.owner.trans h.owner, h'.data.trans h.data, h'.sum.trans h.sum,
    fun x h1 h2 => (h'.others x h1 h2).trans (h.others x h1 h2)⟩

theorem Paid.setData {d : Bytes} (h : Paid L L' k p) (hp : p ≠ k) : Paid L (L'.setData k d) k p := by
  refine ⟨?_, ?_, ?_, fun x h1 h2 => ?_⟩
  · rw [Ledger.setData_other _ _ hp]; exact h.owner
  · rw [Ledger.setData_other _ _ hp]; exact h.data
  · rw [Ledger.setData_other _ _ hp, Ledger.setData_same]; exact h.sum
  · rw [Ledger.setData_other _ _ h1]; exact h.others x h1 h2

theorem Paid.underway {program : Key} (h : Paid L L' k p) (hu : Underway program L k p total)
    (ho : (L' k).owner = program) (hd : (L' k).data ≠ []) : Underway program L' k p total :=
  ⟨hu.other, ⟨h.owner.trans hu.wallet.1, h.data.trans hu.wallet.2⟩, h.sum.trans hu.funds,
    fun h => absurd h hd, fun _ => ho⟩

/-- The runtime allows it. -/
theorem Paid.allowed (h : Paid L L' k p) (hu : Underway E.program L k p total)
    (hs : Serves E L k p) (hl : (L' k).data.length ≤ 10485760) (x : Key) :
    changeAllowed E x (L x) (L' x) = true := by
  by_cases hx : x = k
  · subst hx
    by_cases hd : (L x).data = []
    · have := hu.unused hd
      unfold changeAllowed
      simp [hs.writable.1, hs.signer.1, this, show (L' x).data.length ≤ maxDataLen from hl]
    · exact changed_owned hs.writable.1 (hu.buffer hd) hl
  · by_cases hxp : x = p
    · subst hxp
      exact changed_debit hs.writable.2 hs.signer.2 hu.wallet.1 hu.wallet.2
        (h.data.trans hu.wallet.2)
    · rw [h.others x hx hxp]; exact changed_nothing x

/-- The account grows. -/
theorem resize_paid (hu : Underway E.program L k p total) (hs : Serves E L k p)
    (hr : E.rent size ≤ total) (ht : total < 18446744073709551616)
    (h1 : (L k).data.length ≤ size) (h2 : size ≤ (L k).data.length + 10240) :
    ∃ L', resize E L size k (some p) (some Key.system) = .ok L' ∧ Paid L L' k p ∧
      (L' k).owner = (L k).owner := by
  have em : maxIncrease = 10240 := rfl
  have e64 : two64 = 18446744073709551616 := rfl
  have hf := hs.fresh
  have hfu := hu.funds
  obtain ⟨L1, g1, g2, g3, g4⟩ : ∃ L1, resizeLamports E L size k (some p) (some Key.system) = .ok L1 ∧
      Paid L L1 k p ∧ (L1 k).data = (L k).data ∧ (L1 k).owner = (L k).owner := by
    unfold resizeLamports
    rw [if_neg (by omega)]
    unfold resizeFund
    by_cases hd : E.rent size ≤ (L k).lamports
    · refine ⟨L, ?_, Paid.refl, rfl, rfl⟩
      inv
      refine ⟨by omega, ?_⟩
      rw [if_neg (by omega)]
      rfl
    · refine ⟨(L.setLamports p ((L p).lamports - (E.rent size - (L k).lamports))).setLamports k
        ((L k).lamports + (E.rent size - (L k).lamports)), ?_, ⟨?_, ?_, ?_, fun x hx hxp => ?_⟩, ?_, ?_⟩
      · inv
        refine ⟨by omega, ?_⟩
        rw [if_pos (by omega)]
        inv
        refine ⟨hs.signer.2, trivial, ?_⟩
        unfold systemTransfer
        rw [if_pos ⟨hs.signer.2, hs.writable.2, hs.writable.1, hu.wallet.1, hu.wallet.2, by omega⟩]
        simp only
        rw [Ledger.setLamports_other _ _ (Ne.symm hu.other), if_pos (by omega)]
      · rw [Ledger.setLamports_other _ _ hu.other, Ledger.setLamports_same]
      · rw [Ledger.setLamports_other _ _ hu.other, Ledger.setLamports_same]
      · rw [Ledger.setLamports_other _ _ hu.other, Ledger.setLamports_same,
          Ledger.setLamports_same]
        simp only
        omega
      · exact setLamports_setLamports_other hxp hx
      · rw [Ledger.setLamports_same]; exact (setLamports_data _ _ _).1
      · rw [Ledger.setLamports_same]; exact (setLamports_data _ _ _).2
  unfold resize realloc
  by_cases hsz : size = (L1 k).data.length
  · refine ⟨L1, ?_, g2, g4⟩
    inv
    exact ⟨L1, g1, by rw [if_pos hsz]⟩
  · refine ⟨L1.setData k (reallocBytes (L1 k).data size), ?_, g2.setData hu.other, ?_⟩
    · inv
      refine ⟨L1, g1, ?_⟩
      rw [if_neg hsz, if_neg (by omega)]
    · rw [Ledger.setData_same]; exact g4

/-- The account is created. -/
theorem createAccount_paid (hu : Underway E.program L k p total) (hs : Serves E L k p)
    (hr : E.rent size ≤ total) (ht : total < 18446744073709551616)
    (hd : (L k).data = []) (h2 : size ≤ 10240) :
    ∃ L', createAccount E L k (some p) (some Key.system) size = .ok L' ∧ Paid L L' k p ∧
      (L' k).owner = E.program ∧ (L' k).data = zeros size := by
  have em : maxIncrease = 10240 := rfl
  have e64 : two64 = 18446744073709551616 := rfl
  have hfu := hu.funds
  have hk := hu.unused hd
  have hk0 : (L k).lamports = 0 := by rw [hk]
  refine ⟨(L.setLamports p ((L p).lamports - E.rent size)).set k ⟨E.rent size, zeros size, E.program⟩,
    ?_, ⟨?_, ?_, ?_, fun x hx hxp => ?_⟩, ?_, ?_⟩
  · unfold createAccount
    simp only
    inv
    refine ⟨hs.signer.2, trivial, ?_⟩
    unfold systemCreate
    rw [if_pos ⟨hs.signer.2, hs.writable.2, hs.signer.1, hs.writable.1, hu.other, hu.wallet.1,
      hu.wallet.2, by omega, by rw [hk], hd, hk0, by omega, by omega⟩]
  · rw [Ledger.set_other _ _ hu.other, Ledger.setLamports_same]
  · rw [Ledger.set_other _ _ hu.other, Ledger.setLamports_same]
  · rw [Ledger.set_other _ _ hu.other, Ledger.setLamports_same, Ledger.set_same]
    simp only
    omega
  · rw [Ledger.set_other _ _ hx, Ledger.setLamports_other _ _ hxp]
  · rw [Ledger.set_same]
  · rw [Ledger.set_same]

/-! ## Allocate -/

/-- Where the next extension goes. -/
def nextAt (d : Bytes) : Nat := if d = [] then 168 else d.length

theorem Ready.hasExts {d : Bytes} (h : Ready d es) (hd : d ≠ []) :
    Blank d ∧ Packed d 168 es d.length := by
  rcases h with ⟨rfl, _⟩ | h
  · exact absurd rfl hd
  · exact h

theorem Spec.Blank.disc {d : Bytes} (h : Blank d) : hDisc d = discUninit := h.2 0 (by omega)

theorem allocateOffset_live {t : ExtType} (hr : Ready (L k).data es)
    (ho : (L k).data ≠ [] → (L k).owner = E.program) (ht : t ≠ .none) (hn : t ∉ es.map (·.1)) :
    allocateOffset E L k t = .ok (decide ((L k).data ≠ []), nextAt (L k).data) := by
  unfold allocateOffset nextAt
  simp only
  by_cases hd : (L k).data = []
  · rw [if_pos hd, if_pos hd, hd]; rfl
  · rw [if_neg hd, if_neg hd, decide_eq_true hd]
    obtain ⟨hb, hp⟩ := hr.hasExts hd
    have hends : Ends (L k).data (L k).data.length :=
      Or.inr (leNat_slice_zero fun i hi => byteAt_of_length_le hi)
    inv
    refine ⟨ho hd, hb.1, hb.disc, _, assetContains_walk ht ⟨_, hp.walk, Or.inr
      (leNat_slice_zero fun i hi => byteAt_of_length_le hi)⟩, by simpa using hn, ?_⟩
    rcases lastExtension_walk hp.walk hends with ⟨g1, rfl⟩ | ⟨pre, t, q, m, rfl, g0, g2, g3⟩
    · refine ⟨_, g1, ?_⟩
      generalize (L k).data.length = n at hp
      cases hp
      rfl
    · refine ⟨_, g3, ?_⟩
      obtain ⟨_, _, _, _, g5, g6, _, _⟩ := g2.head
      simp only
      inv
      exact ⟨by omega, trivial⟩

theorem roundUp8_le (n : Nat) : roundUp8 n ≤ n + 7 := by unfold roundUp8; omega

theorem allocateExtended_le {x : ExtInput} {o : Nat} {data : Bytes}
    (hl : data.length < 4294967296) :
    allocateExtended x.length o data ≤ roundUp8 (o + 16 + data.length) ∧
      o + 16 + data.length ≤ allocateExtended x.length o data := by
  have hru := le_roundUp8 (o + 16 + data.length)
  have e32 : two32 = 4294967296 := rfl
  unfold allocateExtended
  rw [Nat.mod_eq_of_lt (by omega)]
  split
  · rename_i h
    rw [h]
    exact ⟨Nat.le_refl _, hru⟩
  · exact ⟨hru, Nat.le_refl _⟩

/-- Allocate succeeds on a buffer with complete extensions. -/
theorem allocate_live {x : ExtInput} (hu : Underway E.program L k p total) (hs : Serves E L k p)
    (hr : Ready (L k).data es) (hf : Fits x) (ht : x.ty ≠ .none) (hn : x.ty ∉ es.map (·.1))
    (hle : (given x).length ≤ x.length.toNat) (hsmall : (given x).length ≤ 10000)
    (ha : Affords E (roundUp8 (nextAt (L k).data + 16 + (given x).length)) total) :
    ∃ L', processAllocate E L k (some p) (some Key.system) x = .ok L' ∧ Paid L L' k p ∧
      (L' k).owner = E.program := by
  have e16 : extLen = 16 := rfl
  have hgf := given_fits hf
  have e32 : two32 = 4294967296 := rfl
  have hoff := allocateOffset_live (E := E) hr hu.buffer ht hn
  obtain ⟨x1, x2⟩ := allocateExtended_le (x := x) (o := nextAt (L k).data) hgf
  have hru := roundUp8_le (nextAt (L k).data + 16 + (given x).length)
  have hsave : ∃ L', saveExtensionData E L k (some p) (some Key.system) x
      (decide ((L k).data ≠ [])) (nextAt (L k).data) (given x) = .ok L' ∧ Paid L L' k p ∧
      (L' k).owner = E.program := by
    obtain ⟨L1, s1, s2, s3, s4⟩ : ∃ L1, allocateSpace E L k (some p) (some Key.system) x.length
        (decide ((L k).data ≠ [])) (nextAt (L k).data) (given x) = .ok L1 ∧ Paid L L1 k p ∧
        (L1 k).owner = E.program ∧
        allocateExtended x.length (nextAt (L k).data) (given x) ≤ (L1 k).data.length := by
      unfold allocateSpace
      simp only
      by_cases hd : (L k).data = []
      · have hnx : nextAt (L k).data = 168 := by unfold nextAt; rw [if_pos hd]
        rw [if_pos (by simp [hd])]
        obtain ⟨L1, c1, c2, c3, c4⟩ := createAccount_paid hu hs (ha.2 _ x1) ha.1 hd (by omega)
        exact ⟨L1, c1, c2, c3, by rw [c4, length_zeros]; exact Nat.le_refl _⟩
      · have hnx : nextAt (L k).data = (L k).data.length := by unfold nextAt; rw [if_neg hd]
        rw [if_neg (by simp [hd]), if_pos (Or.inl (by omega))]
        obtain ⟨L1, c1, c2, c3⟩ := resize_paid hu hs (ha.2 _ x1) ha.1 (by omega) (by omega)
        refine ⟨L1, c1, c2, c3.trans (hu.buffer hd), ?_⟩
        obtain ⟨_, d1, _⟩ := resize_eff c1
        rw [d1, length_reallocBytes']
        exact Nat.le_refl _
    obtain ⟨d1, w1⟩ := writeHdr_live (d := (L1 k).data) (o := nextAt (L k).data) (ty := x.ty.toU32)
      (n := x.length.toNat)
      (b := align8 (nextAt (L k).data + extLen + x.length.toNat)) (by omega)
    have hl1 := (writeHdr_ok w1).2.1
    obtain ⟨d2, w2⟩ := copyData_live (d := d1) (o := nextAt (L k).data + extLen) (bs := given x)
      (by omega)
    refine ⟨L1.setData k d2, ?_, s2.setData hu.other, ?_⟩
    · unfold saveExtensionData
      inv
      exact ⟨L1, s1, d1, w1, d2, w2, rfl⟩
    · rw [Ledger.setData_same]; exact s3
  obtain ⟨L', h1, h2⟩ := hsave
  refine ⟨L', ?_, h2⟩
  unfold processAllocate
  inv
  refine ⟨hs.signer.1, _, hoff, ?_⟩
  simp only
  unfold given at h1 hle hgf
  cases hx : x.data with
  | none => rw [hx] at h1; exact h1
  | some q =>
    rw [hx] at h1 hle hgf
    simp only [Option.getD_some] at h1 hle hgf
    simp only
    inv
    exact ⟨by rw [Nat.mod_eq_of_lt (by omega)]; exact hle, h1⟩

/-! ## Write -/

/-- Write succeeds on an unfinished extension. -/
theorem write_live {t : ExtType} {n : Nat} {q c : Bytes} (hu : Underway E.program L k p total)
    (hs : Serves E L k p) (hc : Pending (L k).data es t n q) (hle : q.length + c.length ≤ n)
    (hsmall : c.length ≤ 10000)
    (hv : q.length + c.length = n → ∃ v, onCreate t (q ++ c) none = .ok v)
    (ha : Affords E size total) (hsz : roundUp8 ((L k).data.length + (n - q.length)) ≤ size) :
    ∃ L', processWrite E L k p Key.system ⟨false, c⟩ = .ok L' ∧ Paid L L' k p ∧
      (L' k).owner = E.program := by
  obtain ⟨m', hp', hml, hlast⟩ := lastExtension_pending hc
  obtain ⟨hb, htt, m, g1, g2, g3, g4, g5, g6, g7⟩ := hc
  obtain rfl : m' = m := by omega
  clear hp' hml
  have hne : (L k).data ≠ [] := by
    intro h0; have := hb.1; rw [h0] at this; simp at this
  have hm := g1.walk.le.1
  have hru := le_roundUp8 (m' + 16 + n)
  have hru2 := roundUp8_le (m' + 16 + n)
  rw [show (L k).data.length + (n - q.length) = m' + 16 + n by omega] at hsz
  have hmax := hsz
  clear hsz
  revert hmax
  generalize size = most at *
  intro hmax
  generalize hsz : (if (L k).data.length + c.length = m' + 16 + n then roundUp8 (m' + 16 + n)
    else (L k).data.length + c.length) = size
  have hsz1 : (L k).data.length + c.length ≤ size ∧ size ≤ (L k).data.length + (c.length + 7) := by
    rw [← hsz]; split <;> omega
  have hsz2 : size ≤ roundUp8 (m' + 16 + n) := by rw [← hsz]; split <;> omega
  obtain ⟨L1, r1, r2, r3⟩ := resize_paid (size := size) hu hs (ha.2 _ (by omega)) ha.1 (by omega) (by omega)
  obtain ⟨_, r4, _⟩ := resize_eff r1
  have hfit : (L k).data.length + c.length ≤ (reallocBytes (L k).data size).length := by
    rw [length_reallocBytes']; exact hsz1.1
  have hmc : memcpy (reallocBytes (L k).data size) (L k).data.length c =
      .ok (splice (reallocBytes (L k).data size) (L k).data.length c) := by
    unfold memcpy
    rw [if_neg (by omega), if_neg (by omega)]
  generalize hD : splice (reallocBytes (L k).data size) (L k).data.length c = D at hmc
  have hDl : D.length = size := by rw [← hD, length_splice hfit, length_reallocBytes']
  have key : ∀ L' : Ledger, ((if D.length < m' + 16 + n then
        (.ok (L1.setData k D) : Except Err Ledger)
      else do
        let d2 ← writeValidate D
        return L1.setData k d2) = .ok L') →
      processWrite E L k p Key.system ⟨false, c⟩ = .ok L' := by
    intro L' hr
    unfold processWrite
    inv
    refine ⟨trivial, hs.signer.2, hs.signer.1, hu.buffer hne, hb.1, hb.disc, _, hlast, ?_⟩
    simp only [Bool.false_eq_true, if_false]
    inv
    refine ⟨by omega, L1, ?_, D, ?_, ?_⟩
    · rw [hsz]; exact r1
    · rw [r4]; exact hmc
    · exact hr
  have fin : ∀ V : Bytes, Paid L (L1.setData k V) k p ∧ ((L1.setData k V) k).owner = E.program :=
    fun V => ⟨r2.setData hu.other, by rw [Ledger.setData_same]; exact r3.trans (hu.buffer hne)⟩
  by_cases hlt : D.length < m' + 16 + n
  · exact ⟨L1.setData k D, key _ (by rw [if_pos hlt]), fin D⟩
  · have hn : q.length + c.length = n := by
      by_contra h
      rw [if_neg (by omega)] at hsz
      omega
    obtain ⟨v, hv⟩ := hv hn
    have hlow : ∀ i, i < m' + 16 → D[i]? = (L k).data[i]? := by
      intro i hi
      rw [← hD, getElem?_splice_outside hfit (by omega), getElem?_reallocBytes (by omega) (by omega)]
    have hlows : ∀ o c, o + c ≤ m' + 16 → slice D o c = slice (L k).data o c :=
      fun o c hoc => slice_congr fun i hi => hlow _ (by omega)
    have hdat : slice D (m' + 16) n = q ++ c := by
      rw [← hn, slice_add]
      congr 1
      · conv => rhs; rw [← g6]
        refine slice_congr fun i hi => ?_
        rw [← hD, getElem?_splice_outside hfit (by omega),
          getElem?_reallocBytes (by omega) (by omega)]
      · rw [← hD, ← g5]
        exact slice_splice_same hfit rfl
    have hpD : Packed D 168 es m' := g1.congr (by omega) fun i _ hi => hlow i (by omega)
    have a2 := (congrArg leNat (hlows m' 4 (by omega))).trans g2
    have a3 := (congrArg leNat (hlows (m' + 4) 4 (by omega))).trans g3
    have a4 := (congrArg leNat (hlows (m' + 8) 4 (by omega))).trans g4
    refine ⟨L1.setData k (splice D (m' + 16) v), key _ ?_, fin _⟩
    rw [if_neg hlt]
    inv
    refine ⟨splice D (m' + 16) v, ?_, rfl⟩
    unfold writeValidate
    inv
    refine ⟨_, lastExtension_tail htt hpD a2 a3 a4 (by omega) (by omega), ?_⟩
    simp only
    rw [ofU32_toU32]
    simp only
    rw [if_neg (by omega), hdat]
    inv
    exact ⟨v, mapLife_ok.mpr hv, rfl⟩

/-! ## The hooks -/

/-- What is accepted in the end is accepted by Write, and what Write stores is accepted in the
end. -/
theorem onCreate_twice {t : ExtType} {b r : Bytes} {au : Key} (h : onCreate t b (some au) = .ok r) :
    ∃ q, onCreate t b none = .ok q ∧ ∃ r', onCreate t q (some au) = .ok r' := by
  by_cases ht : t = .creators
  · subst ht
    obtain ⟨cs, rfl, _, hsum⟩ := onCreate_creators h
    have hone : ∀ (a : Option Key) (cs : List Creator), shareTotal cs = 100 →
        onCreate .creators (creatorsBytes cs) a =
          .ok (creatorsBytes (cs.map fun c => { c with verified := initialVerified a c })) := by
      intro a cs hs
      simp only [onCreate]
      inv
      refine ⟨cs, readCreators_eq.mpr rfl, _, creatorsOnCreate_ok.mpr ⟨rfl, ?_⟩, rfl⟩
      rw [← hs]
      unfold shareTotal
      rw [List.foldl_map]
    refine ⟨_, hone none cs hsum, _, hone (some au) _ ?_⟩
    rw [← hsum]
    unfold shareTotal
    rw [List.foldl_map]
  · have hn : onCreate t b none = .ok r := by
      rw [← h]
      cases t <;> first | rfl | exact absurd rfl ht
    obtain rfl := onCreate_other ht h
    exact ⟨_, hn, _, h⟩

/-- The validation of Create. -/
theorem createValidate_live {au : Key} {d : Bytes} {off e fuel : Nat} (h : Walk d off es e)
    (he : Ends d e) (hh : ∀ x ∈ es, ∃ q, onCreate x.1 x.2 (some au) = .ok q)
    (hf : es.length < fuel) : ∃ r, createValidate au fuel d off = .ok r := by
  have e16 : extLen = 16 := rfl
  induction es generalizing d off fuel with
  | nil =>
    cases h
    obtain ⟨f, rfl⟩ : ∃ f, fuel = f + 1 := ⟨fuel - 1, by omega⟩
    rw [createValidate]
    by_cases hl : e + extLen ≤ d.length
    · rw [if_pos hl]
      simp only
      have : (hdrAt d e).ty = 0 := by
        rcases he with he | he
        · omega
        · exact he
      rw [this]
      exact ⟨_, rfl⟩
    · rw [if_neg hl]; exact ⟨_, rfl⟩
  | cons x xs ih =>
    obtain ⟨t, q⟩ := x
    obtain ⟨h1, h2, h3, h4, h5, h6, h7, h8⟩ := h.head
    obtain ⟨f, rfl⟩ : ∃ f, fuel = f + 1 := ⟨fuel - 1, by omega⟩
    obtain ⟨v, hv⟩ := hh (t, q) (by simp)
    have hvl := onCreate_length hv
    simp only at hvl hv
    have hfit : off + 16 + v.length ≤ d.length := by omega
    have out : ∀ i, i < off + 16 ∨ off + 16 + v.length ≤ i →
        (splice d (off + 16) v)[i]? = d[i]? := fun i hi => getElem?_splice_outside hfit hi
    have hle := h8.le
    obtain ⟨⟨d', ts⟩, hr⟩ := ih (d := splice d (off + 16) v) (fuel := f)
      (h8.congr (by rw [length_splice hfit]; exact hle.2) fun i h1 _ => out i (by omega))
      (he.congr (length_splice hfit) fun i hi => out i (by omega)) (fun y hy => hh y (by simp [hy]))
      (by simp at hf; omega)
    refine ⟨(d', t :: ts), ?_⟩
    have : createValidate au (f + 1) d off = (if (hdrAt d off).bnd < extLen + off then
            Except.error (Err.asset .extensionDataInvalid)
          else if d.length < (hdrAt d off).bnd then .error (.asset .extensionDataInvalid)
          else if (hdrAt d off).bnd < off + extLen + (hdrAt d off).len then .error .panic
          else do
            let p ← mapLife (onCreate t (slice d (off + extLen) (hdrAt d off).len) (some au))
            let (d', ts) ← createValidate au f (splice d (off + extLen) p) (hdrAt d off).bnd
            return (d', t :: ts)) := by
      rw [createValidate, if_pos h1]
      simp only
      rw [h2]
      cases t <;> first | exact absurd rfl h3 | rfl
    rw [this, if_neg (by omega), if_neg (by omega), if_neg (by omega), h4, e16, h7]
    inv
    exact ⟨v, mapLife_ok.mpr hv, (d', ts), hr, rfl⟩

/-! ## Create -/

theorem createProxyCheck_live {a : Key} {d : Bytes} {st : Standard} (hx : HasExts d es)
    (h1 : st = .proxied ↔ ExtType.proxy ∈ es.map (·.1))
    (h2 : ∀ px, lookup .proxy es = some px → px.length = 97 ∧
      E.pda (slice px 32 32) (byteAt px 64) (keyAt px 0) = some a) :
    createProxyCheck E a d st = .ok () := by
  unfold createProxyCheck
  inv
  refine ⟨_, assetGet_walk hx (by simp), ?_⟩
  cases hlk : lookup ExtType.proxy es with
  | none =>
    simp only
    rw [if_neg (fun h => lookup_eq_none.mp hlk (h1.mp h))]
    rfl
  | some px =>
    obtain ⟨g1, g2⟩ := h2 px hlk
    simp only
    inv
    refine ⟨⟨keyAt px 0, slice px 32 32, byteAt px 64, keyAt px 65⟩, ?_, ?_⟩
    · unfold readProxy
      rw [if_neg (by simpa using g1)]
    · have hm : ExtType.proxy ∈ es.map (·.1) := by
        by_contra hc
        rw [lookup_eq_none.mpr hc] at hlk
        cases hlk
      rw [if_pos (h1.mpr hm)]
      simp only
      rw [g2]
      simp only
      rw [require_ok]
      trivial

theorem lookup_hooked {au : Option Key} {t : ExtType} {fs : List Extn} (ht : t ≠ .creators)
    (h : List.Forall₂ (Hooked au) es fs) : lookup t fs = lookup t es := by
  induction h with
  | nil => rfl
  | @cons x y xs ys hxy _ ih =>
    obtain ⟨a, b⟩ := x
    obtain ⟨c, d⟩ := y
    obtain ⟨h1, h2⟩ := hxy
    simp only at h1 h2
    subst h1
    rw [lookup, lookup, ih]
    split
    · rename_i hc
      have : c = t := by simpa using hc
      rw [onCreate_other (by rw [this]; exact ht) h2]
    · rfl

/-- Create succeeds on an unused account or a buffer with complete extensions. -/
theorem create_live {au owner : Key} {x : CreateInput} (hu : Underway E.program L k p total)
    (hs : Serves E L k p) (hr : Ready (L k).data es)
    (hh : ∀ y ∈ es, ∃ q, onCreate y.1 y.2 (some au) = .ok q)
    (hst : StandardFits E k x.standard es) (hx : x.extensions = none)
    (ha : Affords E 168 total) :
    ∃ L', processCreate E L k au owner none none (some p) (some Key.system) x = .ok L' ∧
      Paid L L' k p ∧ (L' k).owner = E.program ∧ (L' k).data.length = packedEnd 168 es := by
  have e168 : assetLen = 168 := rfl
  obtain ⟨L1, c1, c2, c3, c4, c5⟩ : ∃ L1, createPrepare E L k (some p) (some Key.system) x = .ok L1 ∧
      Paid L L1 k p ∧ (L1 k).owner = E.program ∧ Blank (L1 k).data ∧
      Packed (L1 k).data 168 es (L1 k).data.length := by
    unfold createPrepare
    simp only
    rw [hx]
    by_cases hd : (L k).data = []
    · rw [if_pos hd]
      obtain ⟨L1, c1, c2, c3, c4⟩ := createAccount_paid hu hs (ha.2 168 (Nat.le_refl _)) ha.1 hd
        (by omega)
      rcases hr with ⟨_, rfl⟩ | ⟨hb, _⟩
      · refine ⟨L1, c1, c2, c3, ?_, ?_⟩
        · rw [c4]; exact blank_zeros (Nat.le_refl _)
        · rw [c4]; exact packed_zeros 168
      · have := hb.1; rw [hd] at this; simp at this
    · rw [if_neg hd]
      obtain ⟨hb, hp⟩ := hr.hasExts hd
      refine ⟨L, ?_, Paid.refl, hu.buffer hd, hb, hp⟩
      inv
      exact ⟨hu.buffer hd, hb.1, hb.disc, trivial⟩
  have hends : Ends (L1 k).data (L1 k).data.length :=
    Or.inr (leNat_slice_zero fun i hi => byteAt_of_length_le hi)
  have hlen := c5.walk.length_le
  obtain ⟨⟨d, ts⟩, hv⟩ := createValidate_live (fuel := (L1 k).data.length + 1) c5.walk hends hh
    (by omega)
  obtain ⟨es0, fs, e, w1, w2, w3, w4, rfl, w6, w7, w8, w9⟩ := createValidate_walk hv c4.1
  obtain ⟨rfl, rfl⟩ := w1.unique w2 c5.walk hends
  have hb := c4.1
  obtain ⟨hvw, hvl, hdrop⟩ := view_createHeader (d := d) (by omega) owner au x
  have hexh : HasExts (createHeader d owner au x) fs :=
    Spec.HasExts.congr_drop ⟨_, w3, w4⟩ (by omega) hvl hdrop
  have hty := forall2_types_hooked w6
  refine ⟨L1.setData k (createHeader d owner au x), ?_, c2.setData hu.other, ?_⟩
  · unfold processCreate
    inv
    refine ⟨hs.signer.1, L1, c1, L1, ?_, hb, _, hv, ?_⟩
    · rw [hx]; rfl
    · inv
      refine ⟨by rw [hty]; exact hst.1, createProxyCheck_live hexh (by rw [hty]; exact hst.2.1) ?_,
        trivial⟩
      intro px hpx
      rw [lookup_hooked (by decide) w6] at hpx
      refine ⟨?_, hst.2.2 px hpx⟩
      have hm := lookup_mem hpx
      obtain ⟨q, hq⟩ := hh _ hm
      exact ((onCreate_iff (t := .proxy) (by decide)).mp hq).2
  · rw [Ledger.setData_same]
    exact ⟨c3, by simp only; rw [hvl, w7]; exact c5.end_eq⟩

/-! ## Acceptance by the program and the runtime -/

theorem accept_open {i : Instr} {accts : List Key} (hu : Underway E.program L k p total)
    (hs : Serves E L k p) (hb : (L k).data ≠ [] → Blank (L k).data)
    (ha : accts.head? = some k) (hc : ∀ x ∈ accts, x ≠ k → x ≠ p → Whole E.program L x)
    (hp : E.program ≠ Key.system)
    (hi : i.blockedByLock = false) (hd : dispatch E L i (accts.take 7) = .ok L')
    (hpd : Paid L L' k p) (hl : (L' k).data.length ≤ 10485760) : execute E L accts i = .ok L' := by
  obtain ⟨b, hb'⟩ := lockedScan_whole (L := L) (E := E) (ks := accts.take 7) fun x hx => by
    by_cases hk : x = k
    · subst hk
      intro _ h2
      by_cases hd : (L x).data = []
      · rw [hd] at h2; cases h2
      · have := (hb hd).1; omega
    · by_cases hxp : x = p
      · subst hxp
        intro h1
        exact absurd (h1.symm.trans hu.wallet.1) hp
      · exact hc x (List.mem_of_mem_take hx) hk hxp
  have hpc : proxiedCheck E L (accts.take 7) = .ok () := by
    cases accts with
    | nil => rfl
    | cons a as =>
      obtain rfl : a = k := by simpa using ha
      rw [List.take_succ_cons]
      unfold proxiedCheck
      simp only
      split
      · rename_i h
        have := (hb h.2).1
        inv
        exact ⟨by omega, Or.inr hs.signer.1⟩
      · rfl
  unfold execute processInstr
  inv
  refine ⟨L', ⟨hpc, b, hb', by simp [hi], hd⟩, ?_⟩
  rw [if_pos (by rw [List.all_eq_true]; exact fun x _ => hpd.allowed hu hs hl x)]
  rfl

/-! ## The instructions of a mint -/

theorem allocate_exact {x : ExtInput} {base : Bytes} {payer sys : Option Key}
    (hp : processAllocate E L k payer sys x = .ok L') (ho : Open (L k).data base)
    (hm : (L k).data.length ≤ 10485760) (hf : Fits x) (ht : x.ty ≠ .none) :
    ((given x).length = x.length.toNat → (L' k).data = finished base x.ty (given x)) ∧
    ((given x).length ≠ x.length.toNat →
      (L' k).data = begun base x.ty x.length.toNat (given x) ∧
      ∃ es, Pending (L' k).data es x.ty x.length.toNat (given x)) := by
  rcases ho with ⟨h1, rfl⟩ | ⟨rfl, hb, es, hpk⟩
  · obtain ⟨e1, e2⟩ := allocate_empty_exact hp h1 hf
    obtain ⟨_, q1, _, q2⟩ := allocate_empty hp h1 hf ht
    exact ⟨e1, fun hne => ⟨e2 hne, _, q2 hne⟩⟩
  · obtain ⟨e1, e2⟩ := allocate_complete_exact hp hb hpk hf ht
    obtain ⟨_, q1, _, q2⟩ := allocate_complete hp
      ⟨hb, _, hpk, fun i hi => byteAt_of_length_le hi⟩ (by omega) hf ht
    exact ⟨e1, fun hne => ⟨e2 hne, _, q2 hne⟩⟩

theorem send_call {c : Call} {xs : List ClientIx} (hc : InstrOk (instrOf c))
    (h : execute (serving E L (c.build E.program)) L (c.build E.program).keys (instrOf c) = .ok L') :
    sends E L (c.build E.program :: xs) = sends E L' xs := by
  rw [sends, Props.C30_execute.mpr ⟨_, hc, Call.data_eq _ _, h⟩]

theorem sends_submitted {L L' : Ledger} {xs : List ClientIx} (a : Key) (h : sends E L xs = .ok L') :
    Submitted E.program a L xs L' := by
  induction xs generalizing L with
  | nil => cases h; exact .done _
  | cons x xs ih =>
    unfold sends at h
    cases h1 : executeBytes (serving E L x) L x.keys x.data with
    | error e => rw [h1] at h; cases h
    | ok L1 =>
      rw [h1] at h
      exact .send (serving E L x) rfl (fun _ => rfl) h1 (ih h)

theorem serves_allocate {x : ExtInput} {sys : Option Key} :
    Serves (serving E L ((Call.allocate k (some p) sys x).build E.program)) L k p := by
  refine ⟨⟨?_, ?_⟩, ⟨?_, ?_⟩, rfl⟩ <;> simp [serving, Call.build, Call.metas, metaRw, metaOpt]

theorem serves_write {x : WriteInput} {sys : Key} :
    Serves (serving E L ((Call.write k p sys x).build E.program)) L k p := by
  refine ⟨⟨?_, ?_⟩, ⟨?_, ?_⟩, rfl⟩ <;> simp [serving, Call.build, Call.metas, metaRw]

theorem serves_create {x : CreateInput} {au : Key × Bool} {o : Key} {g ga sys : Option Key} :
    Serves (serving E L ((Call.create k au o g ga (some p) sys x).build E.program)) L k p := by
  refine ⟨⟨?_, ?_⟩, ⟨?_, ?_⟩, rfl⟩ <;> simp [serving, Call.build, Call.metas, metaRw, metaOpt]

/-- A stage of the mint that started in `L0`: the extensions `es` are written. -/
structure Stage (E : Env) (L0 L : Ledger) (k p : Key) (total : Nat) (es : List Extn) : Prop where
  underway : Underway E.program L k p total
  ready : Ready (L k).data es
  paid : Paid L0 L k p

/-- The accounts of a mint are in order. -/
structure Sound (E : Env) (L0 : Ledger) (k p owner : Key) : Prop where
  owner : owner ≠ k → owner ≠ p → Whole E.program L0 owner
  program : E.program ≠ k → E.program ≠ p → Whole E.program L0 E.program
  sys : Key.system ≠ k → Key.system ≠ p → Whole E.program L0 Key.system
  notSystem : E.program ≠ Key.system
  notPayer : p ≠ E.program

theorem Whole.paid {L0 : Ledger} {x prog : Key} (h : Paid L0 L k p) (h1 : x ≠ k) (h2 : x ≠ p)
    (hw : Whole prog L0 x) : Whole prog L x := by
  unfold Whole
  rw [h.others x h1 h2]
  exact hw

theorem Ready.nextAt {d : Bytes} (h : Ready d es) : Verif.nextAt d = packedEnd 168 es := by
  unfold Verif.nextAt
  rcases h with ⟨rfl, rfl⟩ | ⟨hb, hp⟩
  · rfl
  · rw [if_neg (by intro h0; have := hb.1; rw [h0] at this; simp at this)]
    exact hp.end_eq

theorem Ready.length_le {d : Bytes} (h : Ready d es) : d.length ≤ packedEnd 168 es := by
  rw [← h.nextAt]
  unfold Verif.nextAt
  split
  · rename_i h; rw [h]; simp
  · exact Nat.le_refl _

theorem Ready.blank {d : Bytes} (h : Ready d es) (hd : d ≠ []) : Blank d := (h.hasExts hd).1

theorem length_finished (base : Bytes) (t : ExtType) (q : Bytes) :
    (finished base t q).length = roundUp8 (base.length + 16 + q.length) := by
  have hru := le_roundUp8 (base.length + 16 + q.length)
  unfold finished
  simp [length_begun]
  omega

/-- The Writes for the rest of the data of one extension. -/
theorem writes_live {L0 : Ledger} {owner : Key} {t : ExtType} {n : Nat} {base v : Bytes}
    {rest : List ClientIx} (hso : Sound E L0 k p owner) (ha : Affords E size total)
    (hsz : roundUp8 (base.length + 16 + n) ≤ size) (hmax : size ≤ 10485760) :
    ∀ {cs : List Bytes} {L : Ledger} {q : Bytes} (o : Bool), Underway E.program L k p total → Paid L0 L k p →
      (L k).data = begun base t n q → Pending (L k).data es t n q → q.length < n →
      (∀ c ∈ cs, c ≠ [] ∧ c.length ≤ 1200) → (q ++ cs.flatten).length = n →
      onCreate t (q ++ cs.flatten) none = .ok v →
      (o = true → q = [] ∧ ∀ c, cs.head? = some c → c.length < n) →
      ∃ L2, sends E L ((writesOf k p o cs).map (·.build E.program) ++ rest) = sends E L2 rest ∧
        Underway E.program L2 k p total ∧ Paid L0 L2 k p ∧ (L2 k).data = finished base t v := by
  intro cs
  induction cs with
  | nil =>
    intro L q o _ _ _ _ h1 _ h2
    simp at h2
    omega
  | cons c cs ih =>
    intro L q o hu hpd hd hpe hlt hcs hlen hv ho
    have heq : ∀ E1 : Env, processWrite E1 L k p Key.system ⟨o, c⟩ =
        processWrite E1 L k p Key.system ⟨false, c⟩ := by
      intro E1
      cases o with
      | false => rfl
      | true =>
        obtain ⟨rfl, h2⟩ := ho rfl
        exact write_first hpe (h2 c rfl) true
    have hru := le_roundUp8 (base.length + 16 + n)
    have hru2 := roundUp8_le (base.length + 16 + n)
    have hlen' : q.length + (c.length + cs.flatten.length) = n := by simpa using hlen
    have hc := hcs c (by simp)
    have hle : q.length + c.length ≤ n := by omega
    have hassoc : q ++ (c :: cs).flatten = (q ++ c) ++ cs.flatten := by simp
    rw [hassoc] at hv
    have hnil : q.length + c.length = n → cs = [] := by
      intro h
      cases cs with
      | nil => rfl
      | cons d ds =>
        have h6 := (hcs d (by simp)).1
        have : 0 < d.length := List.length_pos_iff.mpr h6
        simp at hlen'
        omega
    have hdl : (L k).data.length = base.length + 16 + q.length := by rw [hd, length_begun]
    generalize hE : serving E L ((Call.write k p Key.system ⟨o, c⟩).build E.program) = E1
    have hprog : E1.program = E.program := by rw [← hE]; rfl
    have hs : Serves E1 L k p := by rw [← hE]; exact serves_write
    have hu1 : Underway E1.program L k p total := by rw [hprog]; exact hu
    have hne : (L k).data ≠ [] := by
      intro h0; rw [h0] at hdl; simp only [List.length_nil] at hdl; omega
    obtain ⟨L1, w1, w2, w3⟩ := write_live (c := c) (size := size) hu1 hs hpe hle (by omega)
      (fun h => by
        rw [hnil h] at hv
        simp only [List.flatten_nil, List.append_nil] at hv
        exact ⟨v, hv⟩) (by rw [← hE]; exact ha)
      (by rw [hdl, show base.length + 16 + q.length + (n - q.length) = base.length + 16 + n by omega]
          exact hsz)
    have hx := write_exact w1 hpe hd hle
    have hl1 : (L1 k).data.length ≤ 10485760 ∧ (L1 k).data ≠ [] := by
      rcases hx with ⟨h1, h2⟩ | ⟨h1, q', h2, h3⟩
      · have : (L1 k).data.length = base.length + 16 + (q.length + c.length) := by
          rw [h2, length_begun, List.length_append]
        exact ⟨by omega, by intro h0; rw [h0] at this; simp only [List.length_nil] at this; omega⟩
      · have hq := onCreate_length h2
        rw [List.length_append, h1] at hq
        have : (L1 k).data.length = roundUp8 (base.length + 16 + n) := by
          rw [h3, length_finished, hq]
        exact ⟨by omega, by intro h0; rw [h0] at this; simp only [List.length_nil] at this; omega⟩
    have hex : execute E1 L ((Call.write k p Key.system ⟨o, c⟩).build E.program).keys
        (instrOf (Call.write k p Key.system ⟨o, c⟩)) = .ok L1 := by
      refine accept_open hu1 hs (fun _ => hpe.1) rfl ?_ (by rw [hprog]; exact hso.notSystem) rfl
        ?_ w2 hl1.1
      · intro x hx h1 h2
        rw [hprog]
        simp only [ClientIx.keys, Call.build, Call.metas, metaRw, metaRo, List.map_cons,
          List.map_nil, List.mem_cons, List.not_mem_nil, or_false] at hx
        rcases hx with rfl | rfl | rfl
        · exact absurd rfl h1
        · exact absurd rfl h2
        · exact Whole.paid hpd h1 h2 (hso.sys h1 h2)
      · show processWrite E1 L k p Key.system ⟨o, c⟩ = _
        rw [heq]
        exact w1
    have hsend : ∀ xs, sends E L ((Call.write k p Key.system ⟨o, c⟩).build E.program :: xs) =
        sends E L1 xs := fun xs => send_call (c := Call.write k p Key.system ⟨o, c⟩)
      (by show c.length < 4294967296; omega) (by rw [hE]; exact hex)
    have hu2 : Underway E.program L1 k p total := w2.underway hu (by rw [w3, hprog]) hl1.2
    rw [writesOf, List.map_cons, List.cons_append, hsend, ← writesOf_false]
    rcases hx with ⟨h1, h2⟩ | ⟨h1, q', h2, h3⟩
    · rcases write_pending w1 hpe (by unfold written; simpa using hle) with ⟨_, w4⟩ | ⟨w4, _⟩
      · exact ih false hu2 (hpd.trans w2) h2 w4 (by simpa using h1) (fun d hd => hcs d (by simp [hd]))
          (by simp only [List.length_append]; omega) hv (by intro h; cases h)
      · unfold written at w4
        simp at w4
        omega
    · obtain rfl := hnil h1
      simp only [List.flatten_nil, List.append_nil] at hv
      rw [hv] at h2
      cases h2
      exact ⟨L1, rfl, hu2, hpd.trans w2, h3⟩

/-- The instructions for one extension: Allocate with the first part of the data, the rest in
chunks. -/
theorem pieces_live {L0 : Ledger} {owner : Key} {e : Extn} {r : Bytes} {rest : List ClientIx}
    {calls : List Call} (hcalls : Split k p e calls)
    (hso : Sound E L0 k p owner) (ha : Affords E size total) (hmax : size ≤ 10485760)
    (hst : Stage E L0 L k p total es) (ht : e.1 ≠ .none) (hn : e.1 ∉ es.map (·.1))
    (hsz : packedEnd 168 (es ++ [e]) ≤ size) (hr : onCreate e.1 e.2 (some owner) = .ok r) :
    ∃ L2 q, sends E L (calls.map (·.build E.program) ++ rest) = sends E L2 rest ∧
      Stage E L0 L2 k p total (es ++ [(e.1, q)]) ∧ q.length = e.2.length ∧
      (∃ r', onCreate e.1 q (some owner) = .ok r') ∧ (e.1 ≠ .creators → q = e.2) := by
  obtain ⟨x, cs, o, rfl, hxt, hxn, hall, hgs, hcs, ho⟩ := hcalls
  obtain ⟨hu, hrd, hpd⟩ := hst
  have hend : packedEnd 168 (es ++ [e]) = roundUp8 (packedEnd 168 es + 16 + e.2.length) := by
    rw [packedEnd_append]; rfl
  rw [hend] at hsz
  have hru := le_roundUp8 (packedEnd 168 es + 16 + e.2.length)
  have hge := le_packedEnd 168 es
  have hl0 := hrd.length_le
  have hlm : e.2.length ≤ 10485760 := by omega
  have hn32 : (UInt32.ofNat e.2.length).toNat = e.2.length :=
    UInt32.toNat_ofNat_of_lt (by simp [UInt32.size]; omega)
  have hgl : (given x).length ≤ e.2.length := by
    rw [← hall, List.length_append]; omega
  have hxl : x.length.toNat = e.2.length := by rw [hxn]; exact hn32
  have hfit : Fits x := by
    refine ⟨by omega, ?_⟩
    intro q hq
    have : given x = q := by unfold given; rw [hq]; rfl
    rw [this] at hgs
    omega
  have hmono : roundUp8 (packedEnd 168 es + 16 + (given x).length) ≤ size := by
    have : roundUp8 (packedEnd 168 es + 16 + (given x).length) ≤
        roundUp8 (packedEnd 168 es + 16 + e.2.length) := by unfold roundUp8; omega
    omega
  generalize hE : serving E L ((Call.allocate k (some p) (some Key.system) x).build E.program) = E1
  have hprog : E1.program = E.program := by rw [← hE]; rfl
  have hs : Serves E1 L k p := by rw [← hE]; exact serves_allocate
  have hu1 : Underway E1.program L k p total := by rw [hprog]; exact hu
  obtain ⟨L1, a1, a2, a3⟩ := allocate_live hu1 hs hrd hfit (by rw [hxt]; exact ht)
    (by rw [hxt]; exact hn) (by omega) (by omega)
    ⟨ha.1, fun m hm => by
      rw [hrd.nextAt] at hm
      have : E1.rent m = E.rent m := by rw [← hE]; rfl
      rw [this]
      exact ha.2 m (by omega)⟩
  obtain ⟨base, b1, b2, b3⟩ := hrd.open
  have hbl : base.length = packedEnd 168 es := b3.end_eq
  obtain ⟨x1, x2⟩ := allocate_exact a1 b1 (by omega) hfit (by rw [hxt]; exact ht)
  rw [hxl, hxt] at x1 x2
  have hl1 : (L1 k).data.length ≤ 10485760 ∧ (L1 k).data ≠ [] := by
    by_cases hall : (given x).length = e.2.length
    · have : (L1 k).data.length = roundUp8 (packedEnd 168 es + 16 + e.2.length) := by
        rw [x1 hall, length_finished, hall, hbl]
      exact ⟨by omega, by intro h0; rw [h0] at this; simp only [List.length_nil] at this; omega⟩
    · have : (L1 k).data.length = packedEnd 168 es + 16 + (given x).length := by
        rw [(x2 hall).1, length_begun, hbl]
      exact ⟨by omega, by intro h0; rw [h0] at this; simp only [List.length_nil] at this; omega⟩
  have hex : execute E1 L ((Call.allocate k (some p) (some Key.system) x).build E.program).keys
      (instrOf (Call.allocate k (some p) (some Key.system) x)) = .ok L1 := by
    refine accept_open hu1 hs hrd.blank rfl ?_ (by rw [hprog]; exact hso.notSystem) rfl ?_ a2 hl1.1
    · intro y hy h1 h2
      rw [hprog]
      simp only [ClientIx.keys, Call.build, Call.metas, metaRw, metaRo, metaOpt, List.map_cons,
        List.map_nil, List.mem_cons, List.not_mem_nil, or_false] at hy
      rcases hy with rfl | rfl | rfl
      · exact absurd rfl h1
      · exact absurd rfl h2
      · exact Whole.paid hpd h1 h2 (hso.sys h1 h2)
    · show processAllocate E1 L k (optAcc E1 p) (optAcc E1 Key.system) x = _
      unfold optAcc
      rw [hprog, if_neg hso.notPayer, if_neg (Ne.symm hso.notSystem)]
      exact a1
  have hsend : ∀ xs, sends E L ((Call.allocate k (some p) (some Key.system) x).build E.program ::
      xs) = sends E L1 xs := fun xs =>
    send_call (c := Call.allocate k (some p) (some Key.system) x) (fun q hq => hfit.2 q hq)
      (by rw [hE]; exact hex)
  have hu2 : Underway E.program L1 k p total := a2.underway hu (by rw [a3, hprog]) hl1.2
  rw [List.map_cons, List.cons_append, hsend]
  by_cases hlong : (given x).length = e.2.length
  · have hc : cs = [] := by
      cases cs with
      | nil => rfl
      | cons c cs =>
        have := List.length_pos_iff.mpr (hcs c (by simp)).1
        rw [← hall] at hlong
        simp only [List.length_append, List.flatten_cons] at hlong
        omega
    subst hc
    have hgiven : given x = e.2 := by simpa using hall
    refine ⟨L1, e.2, rfl, ⟨hu2, ?_, hpd.trans a2⟩, rfl, ⟨r, hr⟩, fun _ => rfl⟩
    rw [x1 hlong, hgiven]
    exact finished_ready b2 b3 ht (by rw [length_finished, hbl]; omega)
  · obtain ⟨v, v1, v2⟩ := onCreate_twice hr
    obtain ⟨d1, es', d2⟩ := x2 hlong
    obtain ⟨L2, s1, s2, s3, s4⟩ := writes_live (rest := rest) (n := e.2.length) (base := base)
      hso ha (by rw [hbl]; exact hsz) hmax
      (cs := cs) o hu2 (hpd.trans a2) d1 d2 (by omega) hcs (by rw [hall]) (by rw [hall]; exact v1) ho
    have hvl := onCreate_length v1
    refine ⟨L2, v, s1, ⟨s2, ?_, s3⟩, hvl, v2, fun hne => onCreate_other hne v1⟩
    rw [s4]
    exact finished_ready b2 b3 ht (by rw [length_finished, hvl, hbl]; omega)

/-- The buffer has `y` where `x` was asked for. -/
def Staged (owner : Key) (x y : Extn) : Prop :=
  y.1 = x.1 ∧ (∃ r, onCreate x.1 y.2 (some owner) = .ok r) ∧ (x.1 ≠ .creators → y.2 = x.2) ∧
    y.2.length = x.2.length

theorem packedEnd_staged {owner : Key} {xs ys : List Extn} (h : List.Forall₂ (Staged owner) xs ys)
    (o : Nat) : packedEnd o ys = packedEnd o xs := by
  induction h generalizing o with
  | nil => rfl
  | @cons x y xs ys hxy _ ih =>
    obtain ⟨a, b⟩ := x
    obtain ⟨c, d⟩ := y
    have := hxy.2.2.2
    simp only at this
    rw [packedEnd, packedEnd, this, ih]

theorem staged_ok {owner : Key} {xs ys : List Extn} (h : List.Forall₂ (Staged owner) xs ys) :
    ∀ y ∈ ys, ∃ q, onCreate y.1 y.2 (some owner) = .ok q := by
  induction h with
  | nil => simp
  | cons hab _ ih =>
    intro y hy
    rcases List.mem_cons.mp hy with rfl | hy
    · rw [hab.1]; exact hab.2.1
    · exact ih y hy

/-- The instructions for all extensions. -/
theorem exts_live {L0 : Ledger} {owner : Key} {xs : List Extn} {rest : List ClientIx}
    {f : Extn → List Call} (hf : ∀ e ∈ xs, Split k p e (f e)) (hso : Sound E L0 k p owner) (ha : Affords E size total) (hmax : size ≤ 10485760) :
    ∀ {L : Ledger} {es : List Extn}, Stage E L0 L k p total es →
      ((es ++ xs).map (·.1)).Nodup → (∀ e ∈ xs, e.1 ≠ .none ∧ ∃ r, onCreate e.1 e.2 (some owner) = .ok r) →
      packedEnd 168 (es ++ xs) ≤ size →
      ∃ L2 ys, sends E L ((xs.flatMap f).map (·.build E.program) ++ rest) =
          sends E L2 rest ∧ Stage E L0 L2 k p total (es ++ ys) ∧
        List.Forall₂ (Staged owner) xs ys := by
  induction xs with
  | nil => exact fun h _ _ _ => ⟨_, [], rfl, by simpa using h, .nil⟩
  | cons e xs ih =>
    intro L es hst hnd hx hsz
    obtain ⟨hx1, r, hx2⟩ := hx e (by simp)
    have hsz1 : packedEnd 168 (es ++ [e]) ≤ size := by
      rw [show es ++ e :: xs = (es ++ [e]) ++ xs by simp, packedEnd_append] at hsz
      have := le_packedEnd (packedEnd 168 (es ++ [e])) xs
      omega
    have hnew : e.1 ∉ es.map (·.1) := by
      rw [List.map_append, List.nodup_append] at hnd
      intro hm
      exact hnd.2.2 _ hm e.1 (by simp) rfl
    rw [List.flatMap_cons, List.map_append, List.append_assoc]
    obtain ⟨L1, q, g1, g2, g3, g4, g5⟩ := pieces_live (hf e (by simp)) hso ha hmax hst hx1 hnew hsz1 hx2
      (rest := (xs.flatMap f).map (·.build E.program) ++ rest)
    obtain ⟨L2, ys, k1, k2, k3⟩ := ih (fun y hy => hf y (by simp [hy])) g2 (by
        simp only [List.map_append, List.map_cons, List.map_nil, List.append_assoc] at hnd ⊢
        simpa using hnd) (fun y hy => hx y (by simp [hy]))
      (by
        rw [packedEnd_append] at hsz
        rw [packedEnd_append, packedEnd_append]
        simp only [packedEnd] at hsz ⊢
        rw [g3]
        exact hsz)
    refine ⟨L2, (e.1, q) :: ys, g1.trans k1, by simpa using k2, .cons ⟨rfl, g4, g5, g3⟩ k3⟩

theorem lookup_stored {t : ExtType} {R : Extn → Extn → Prop} {fs : List Extn}
    (hR : ∀ x y, R x y → y.1 = x.1 ∧ (x.1 = t → y.2 = x.2)) (h : List.Forall₂ R es fs) :
    lookup t fs = lookup t es ∧ fs.map (·.1) = es.map (·.1) := by
  induction h with
  | nil => exact ⟨rfl, rfl⟩
  | @cons x y xs ys hxy _ ih =>
    obtain ⟨a, b⟩ := x
    obtain ⟨c, d⟩ := y
    obtain ⟨h1, h2⟩ := hR _ _ hxy
    simp only at h1 h2
    subst h1
    rw [lookup, lookup, ih.1, List.map_cons, List.map_cons, ih.2]
    refine ⟨?_, rfl⟩
    split
    · rename_i hc
      have : c = t := by simpa using hc
      rw [h2 this]
    · rfl

end
end Verif
