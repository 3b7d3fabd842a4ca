import Verif.Lemmas.Births

/-!
# Create with extensions in the instruction
-/

namespace Verif

open Verif.Spec

section
variable {E : Env} {L L' : Ledger} {k p : Key} {es : List Extn} {payer sys : Option Key} {total : Nat}

theorem roundUp8_add {a b : Nat} (h : a % 8 = 0) : roundUp8 (a + b) = a + roundUp8 b := by
  unfold roundUp8; omega

theorem roundUp8_mod (n : Nat) : roundUp8 n % 8 = 0 := by unfold roundUp8; omega

/-- The end of the extensions does not depend on their order. -/
theorem packedEnd_sum {off : Nat} (h : off % 8 = 0) (es : List Extn) :
    packedEnd off es = off + (es.map fun x => roundUp8 (16 + x.2.length)).sum := by
  induction es generalizing off with
  | nil => simp [packedEnd]
  | cons x xs ih =>
    obtain ⟨t, q⟩ := x
    rw [packedEnd, ih (roundUp8_mod _), Nat.add_assoc, roundUp8_add h]
    simp only [List.map_cons, List.sum_cons]
    omega

theorem packedEnd_ge (off : Nat) (es : List Extn) : off + 16 * es.length ≤ packedEnd off es := by
  induction es generalizing off with
  | nil => exact Nat.le_refl _
  | cons x xs ih =>
    have := ih (roundUp8 (off + 16 + x.2.length))
    have := le_roundUp8 (off + 16 + x.2.length)
    simp only [packedEnd, List.length_cons]
    omega

theorem packedEnd_perm {xs ys : List Extn} (h : xs.Perm ys) : packedEnd 168 xs = packedEnd 168 ys := by
  rw [packedEnd_sum (by decide), packedEnd_sum (by decide), (h.map _).sum_nat]

/-- Allocate on a buffer with room for the extension only writes to it. -/
theorem allocate_room {x : ExtInput} (hs : E.signer k = true) (ho : (L k).owner = E.program)
    (hc : Complete (L k).data es) (hmax : (L k).data.length ≤ 50000000) (hf : Fits x)
    (ht : x.ty ≠ .none) (hn : x.ty ∉ es.map (·.1)) (hg : (given x).length = x.length.toNat)
    (hroom : packedEnd 168 (es ++ [asExtn x]) ≤ (L k).data.length) :
    ∃ d', processAllocate E L k payer sys x = .ok (L.setData k d') ∧
      d'.length = (L k).data.length ∧ Complete d' (es ++ [asExtn x]) := by
  have e16 : extLen = 16 := rfl
  have e32 : two32 = 4294967296 := rfl
  have hgf := given_fits hf
  suffices hlive : ∃ d', processAllocate E L k payer sys x = .ok (L.setData k d') ∧
      d'.length = (L k).data.length by
    obtain ⟨d', h1, h2⟩ := hlive
    refine ⟨d', h1, h2, ?_⟩
    have := (allocate_complete h1 hc hmax hf ht).2.2.1 hg
    rw [Ledger.setData_same] at this
    exact this
  have hcl := hc.clean
  obtain ⟨hb, e, hp, hz⟩ := hc
  have hends : Ends (L k).data e := Or.inr (leNat_slice_zero hz)
  have hend := hp.end_eq
  have hoff : allocateOffset E L k x.ty = .ok (true, e) := by
    unfold allocateOffset
    simp only
    rw [if_neg (by intro hn; have := hb.1; rw [hn] at this; simp at this)]
    inv
    refine ⟨ho, hb.1, hb.disc, _, assetContains_walk ht hcl.hasExts, by simpa using hn, ?_⟩
    rcases lastExtension_walk hp.walk hends with ⟨g1, rfl⟩ | ⟨pre, t, q, m, rfl, g0, g2, g3⟩
    · refine ⟨_, g1, ?_⟩
      cases hp
      rfl
    · refine ⟨_, g3, ?_⟩
      obtain ⟨_, _, _, _, g5, g6, _, _⟩ := g2.head
      simp only
      inv
      exact ⟨by omega, trivial⟩
  have hroom' : roundUp8 (e + 16 + (given x).length) ≤ (L k).data.length := by
    rw [packedEnd_append, ← hend] at hroom
    exact hroom
  obtain ⟨x1, x2⟩ := allocateExtended_le (x := x) (o := e) hgf
  have hru := le_roundUp8 (e + 16 + (given x).length)
  obtain ⟨d1, w1⟩ := writeHdr_live (d := (L k).data) (o := e) (ty := x.ty.toU32)
    (n := x.length.toNat) (b := align8 (e + extLen + x.length.toNat)) (by omega)
  have hl1 := (writeHdr_ok w1).2.1
  obtain ⟨d2, w2⟩ := copyData_live (d := d1) (o := e + extLen) (bs := given x) (by omega)
  have hl2 : d2.length = d1.length := by
    unfold copyData at w2
    split at w2
    · cases w2; rfl
    · obtain ⟨h1, rfl⟩ := memcpy_ok w2
      exact length_splice h1
  have hsave : saveExtensionData E L k payer sys x true e (given x) = .ok (L.setData k d2) := by
    unfold saveExtensionData
    inv
    refine ⟨L, ?_, d1, w1, d2, w2, rfl⟩
    unfold allocateSpace
    simp only
    rw [if_neg (by simp), if_neg]
    rintro (h | ⟨h, _⟩)
    · omega
    · rw [hg, Nat.mod_eq_of_lt (by omega)] at h
      exact h rfl
  refine ⟨d2, ?_, by omega⟩
  unfold processAllocate
  inv
  refine ⟨hs, _, hoff, ?_⟩
  simp only
  unfold given at hsave hg hgf
  cases hx : x.data with
  | none => rw [hx] at hsave; exact hsave
  | some q =>
    rw [hx] at hsave hg hgf
    simp only [Option.getD_some] at hsave hg hgf
    simp only
    inv
    exact ⟨by rw [Nat.mod_eq_of_lt (by omega)]; omega, hsave⟩

/-- All extensions of a Create. -/
theorem allocateAll_room {xs : List ExtInput} (hs : E.signer k = true)
    (ho : (L k).owner = E.program) (hc : Complete (L k).data es)
    (hmax : (L k).data.length ≤ 50000000)
    (hx : ∀ x ∈ xs, Fits x ∧ x.ty ≠ .none ∧ (given x).length = x.length.toNat)
    (hn : ((es ++ xs.map asExtn).map (·.1)).Nodup)
    (hroom : packedEnd 168 (es ++ xs.map asExtn) ≤ (L k).data.length) :
    ∃ L' d', allocateAll E k payer sys xs L = .ok L' ∧ L' k = { L k with data := d' } ∧
      (∀ y, y ≠ k → L' y = L y) ∧ d'.length = (L k).data.length ∧
      Complete d' (es ++ xs.map asExtn) := by
  induction xs generalizing L es with
  | nil => exact ⟨L, (L k).data, rfl, rfl, fun _ _ => rfl, rfl, by simpa using hc⟩
  | cons x xs ih =>
    obtain ⟨h1, h2, h3⟩ := hx x (by simp)
    have hsplit : es ++ (x :: xs).map asExtn = (es ++ [asExtn x]) ++ xs.map asExtn := by simp
    rw [hsplit] at hn hroom ⊢
    obtain ⟨d1, a1, a2, a3⟩ := allocate_room (payer := payer) (sys := sys) hs ho hc hmax h1 h2
      (by
        rw [List.map_append, List.map_append, List.append_assoc] at hn
        intro hm
        exact (List.nodup_append.mp hn).2.2 _ hm _ (by simp [asExtn]) rfl) h3
      (by
        rw [packedEnd_append] at hroom
        have := le_packedEnd (packedEnd 168 (es ++ [asExtn x])) (xs.map asExtn)
        omega)
    obtain ⟨L', d', b1, b2, b3, b4, b5⟩ := ih (L := L.setData k d1)
      (by rw [Ledger.setData_same]; exact ho) (by rw [Ledger.setData_same]; exact a3)
      (by rw [Ledger.setData_same]; simp only; omega)
      (fun y hy => hx y (List.mem_cons_of_mem _ hy)) hn
      (by rw [Ledger.setData_same]; simp only; omega)
    refine ⟨L', d', ?_, ?_, fun y hy => ?_, ?_, b5⟩
    · rw [allocateAll]
      inv
      exact ⟨_, a1, b1⟩
    · rw [b2, Ledger.setData_same]
    · rw [b3 y hy, Ledger.setData_other _ _ hy]
    · rw [b4, Ledger.setData_same]
      exact a2

/-- The size that Create asks for. -/
theorem createSpace_eq {x : CreateInput}
    (hx : ∀ y ∈ asked x, (given y).length = y.length.toNat) :
    (assetLen + match x.extensions with
      | some xs => (xs.map fun e => align8 (e.length.toNat + extLen)).sum
      | none => 0) = packedEnd 168 ((asked x).map asExtn) := by
  rw [packedEnd_sum (by decide)]
  unfold asked at hx ⊢
  cases hxe : x.extensions with
  | none => rfl
  | some xs =>
    rw [hxe] at hx
    simp only [Option.getD_some] at hx ⊢
    rw [List.map_map]
    congr 1
    congr 1
    refine List.map_congr_left fun y hy => ?_
    have := hx y hy
    show align8 _ = roundUp8 (16 + (given y).length)
    rw [this, Nat.add_comm]
    rfl

theorem createPrepare_empty {x : CreateInput} (hd : (L k).data = [])
    (hx : ∀ y ∈ asked x, (given y).length = y.length.toNat) :
    createPrepare E L k payer sys x =
      createAccount E L k payer sys (packedEnd 168 ((asked x).map asExtn)) := by
  unfold createPrepare
  simp only
  rw [if_pos hd]
  exact congrArg (createAccount E L k payer sys) (createSpace_eq hx)

/-- Create of an unused account with all extensions in the instruction. -/
theorem create_inline_live {au owner : Key} {x : CreateInput} {ga : Option Key}
    (hu : Underway E.program L k p total)
    (hs : Serves E L k p) (hd : (L k).data = [])
    (hx : ∀ y ∈ asked x, Fits y ∧ y.ty ≠ .none ∧ (given y).length = y.length.toNat)
    (hn : ((asked x).map (·.ty)).Nodup)
    (hh : ∀ y ∈ asked x, ∃ q, onCreate y.ty (given y) (some au) = .ok q)
    (hst : StandardFits E k x.standard ((asked x).map asExtn))
    (hmax : packedEnd 168 ((asked x).map asExtn) ≤ 10240)
    (hr : E.rent (packedEnd 168 ((asked x).map asExtn)) ≤ total)
    (htot : total < 18446744073709551616) :
    ∃ L', processCreate E L k au owner none ga (some p) (some Key.system) x = .ok L' ∧
      Paid L L' k p ∧ (L' k).owner = E.program ∧
      (L' k).data.length = packedEnd 168 ((asked x).map asExtn) := by
  have e168 : assetLen = 168 := rfl
  have e16 : extLen = 16 := rfl
  generalize hz : packedEnd 168 ((asked x).map asExtn) = size at hmax hr
  have hge := le_packedEnd 168 ((asked x).map asExtn)
  obtain ⟨L1, c1, c2, c3, c4⟩ : ∃ L1, createPrepare E L k (some p) (some Key.system) x = .ok L1 ∧
      Paid L L1 k p ∧ (L1 k).owner = E.program ∧ (L1 k).data = zeros size := by
    rw [createPrepare_empty hd fun y hy => (hx y hy).2.2, hz]
    exact createAccount_paid hu hs hr htot hd hmax
  have hperm := createOrder_perm (asked x)
  have hpe : packedEnd 168 ((createOrder (asked x)).map asExtn) = size := by
    rw [← hz]; exact packedEnd_perm (hperm.map _)
  obtain ⟨L2, d', a1, a2, a3, a4, a5⟩ := allocateAll_room (E := E) (L := L1) (k := k) (es := [])
    (payer := some p) (sys := some Key.system) (xs := createOrder (asked x)) hs.signer.1 c3
    (by rw [c4]; exact complete_zeros (by omega))
    (by rw [c4, length_zeros]; omega)
    (fun y hy => hx y (hperm.mem_iff.mp hy))
    (by
      rw [List.nil_append, List.map_map]
      exact ((hperm.map _).nodup_iff).mpr hn)
    (by rw [List.nil_append, hpe, c4, length_zeros]; exact Nat.le_refl _)
  rw [List.nil_append] at a5
  rw [c4, length_zeros] at a4
  have hd2 : (L2 k).data = d' := by rw [a2]
  obtain ⟨hb, e, hpk, hze⟩ := a5
  have hends : Ends d' e := Or.inr (leNat_slice_zero hze)
  have hlen := hpk.walk.length_le
  have hle := hpk.walk.le
  obtain ⟨⟨d, ts⟩, hv⟩ := createValidate_live (au := au) (fuel := d'.length + 1) hpk.walk hends
    (by
      intro y hy
      obtain ⟨z, hz', rfl⟩ := List.mem_map.mp hy
      exact hh z (hperm.mem_iff.mp hz'))
    (by omega)
  obtain ⟨es0, fs, e', w1, w2, w3, w4, rfl, w6, w7, w8, w9⟩ := createValidate_walk hv hb.1
  obtain ⟨rfl, rfl⟩ := w1.unique w2 hpk.walk hends
  have hb1 := hb.1
  obtain ⟨hvw, hvl, hdrop⟩ := view_createHeader (d := d) (by omega) owner au x
  have hexh : HasExts (createHeader d owner au x) fs :=
    Spec.HasExts.congr_drop ⟨_, w3, w4⟩ (by omega) hvl hdrop
  have hty := forall2_types_hooked w6
  have hmem : ∀ t, t ∈ fs.map (·.1) ↔ t ∈ ((asked x).map asExtn).map (·.1) := by
    intro t
    rw [hty]
    exact ((hperm.map asExtn).map (·.1)).mem_iff
  have hp2 : Paid L1 L2 k p := by
    refine ⟨?_, ?_, ?_, fun y h1 h2 => a3 y h1⟩
    · rw [a3 p hu.other]
    · rw [a3 p hu.other]
    · rw [a3 p hu.other, a2]
  refine ⟨L2.setData k (createHeader d owner au x), ?_, (c2.trans hp2).setData hu.other, ?_⟩
  · unfold processCreate
    inv
    refine ⟨hs.signer.1, L1, c1, L2, a1, by rw [hd2]; exact hb.1, _, by rw [hd2]; exact hv, ?_⟩
    inv
    refine ⟨by rw [hmem]; exact hst.1, createProxyCheck_live hexh (by rw [hmem]; exact hst.2.1) ?_,
      trivial⟩
    intro px hpx
    rw [lookup_hooked (by decide) w6] at hpx
    have hm := lookup_mem hpx
    obtain ⟨z, hz', he⟩ := List.mem_map.mp hm
    have hz' := hperm.mem_iff.mp hz'
    refine ⟨?_, hst.2.2 px ?_⟩
    · obtain ⟨q, hq⟩ := hh z hz'
      have h1 : z.ty = .proxy := congrArg Prod.fst he
      have h2 : given z = px := congrArg Prod.snd he
      rw [h1, h2] at hq
      exact ((onCreate_iff (t := .proxy) (by decide)).mp hq).2
    · refine lookup_of_mem ?_ (he ▸ List.mem_map_of_mem hz')
      rw [List.map_map]
      exact hn
  · rw [Ledger.setData_same]
    refine ⟨?_, by simp only; rw [hvl, w7, a4]⟩
    simp only
    rw [a2]
    exact c3

theorem _root_.Verif.Spec.Born.length {au : Key} {x y : Extn} (h : Born au x y) :
    y.2.length = x.2.length := by
  obtain ⟨t, b⟩ := x
  obtain ⟨t', q⟩ := y
  obtain ⟨h1, h⟩ := h
  simp only at h1 h ⊢
  cases t <;> simp only [Accepted, CreatorsAccepted] at h
  case creators => exact h.2.2.1
  case grouping => rw [h.2.2.1]
  all_goals first | exact congrArg _ h | exact congrArg _ h.1

theorem packedEnd_born {au : Key} {xs ys : List Extn} (h : List.Forall₂ (Born au) xs ys)
    (o : Nat) : packedEnd o ys = packedEnd o xs := by
  induction h generalizing o with
  | nil => rfl
  | @cons x y xs ys hxy _ ih =>
    obtain ⟨a, b⟩ := x
    obtain ⟨c, d⟩ := y
    have := hxy.length
    simp only at this
    rw [packedEnd, packedEnd, this, ih]

end
end Verif
