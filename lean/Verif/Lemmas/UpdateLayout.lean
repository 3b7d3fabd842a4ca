import Verif.Lemmas.Walk
import Verif.Lemmas.Loss

/-!
# What an update does to a packed extension area
-/

namespace Verif

open Verif.Spec

theorem align8_eq (n : Nat) : align8 n = roundUp8 n := rfl

theorem getElem?_reallocBytes {d : Bytes} {n i : Nat} (h : i < d.length) (hn : i < n) :
    (reallocBytes d n)[i]? = d[i]? := by
  unfold reallocBytes
  rw [List.getElem?_append_left (by simp; omega), List.getElem?_take_of_lt hn]

theorem copyData_ok {d d' bs : Bytes} {o : Nat} (h : copyData d o bs = .ok d') :
    d' = splice d o bs ∧ (bs = [] ∨ o + bs.length ≤ d.length) := by
  unfold copyData at h
  split at h
  · rename_i hb; cases h; subst hb; exact ⟨(splice_nil _ _).symm, Or.inl rfl⟩
  · unfold memcpy at h
    split at h
    · cases h
    · split at h
      · cases h
      · cases h; exact ⟨rfl, Or.inr (by omega)⟩

theorem getElem?_splice_outside {d bs : Bytes} {o i : Nat} (h : o + bs.length ≤ d.length)
    (hi : i < o ∨ o + bs.length ≤ i) : (splice d o bs)[i]? = d[i]? := by
  rw [getElem?_splice (by omega)]
  rcases hi with hi | hi
  · rw [if_pos hi]
  · rw [if_neg (by omega), if_neg (by omega)]

/-- With `delta = 0` the boundary loop changes nothing. -/
theorem fixBoundaries_zero {n : Nat} {d d' : Bytes} {c : Nat}
    (h : fixBoundaries 0 n d c = .ok d') : d' = d := by
  induction n generalizing d c with
  | zero => cases h
  | succ n ih =>
    rw [fixBoundaries] at h
    split at h
    · split at h
      · cases h
      · rename_i hc hl
        have e16 : extLen = 16 := rfl
        have hs : (slice d (c + 8) 4).length = 4 := length_slice (by omega)
        have hlt := leNat_lt (slice d (c + 8) 4)
        rw [hs] at hlt
        have hsat : satAdd32 (u32At d (c + 8)) 0 = leNat (slice d (c + 8) 4) := by
          unfold satAdd32 u32At
          have : (256 : Nat) ^ 4 = 4294967296 := by decide
          omega
        have hsp : splice d (c + 8) (toLE 4 (satAdd32 (u32At d (c + 8)) 0)) = d := by
          rw [hsat]
          have := toLE_leNat (slice d (c + 8) 4)
          rw [hs] at this
          rw [this]
          exact splice_slice_self (by omega)
        simp only at h
        rw [hsp] at h
        exact ih h
    · cases h; rfl

/-- The boundary loop on an area that was moved by `delta` bytes. -/
theorem fixBoundaries_shift {d0 d1 d2 : Bytes} {b u e fuel : Nat} {post : List Extn} {delta : Int}
    (h : Packed d0 b post e) (hs : ∀ j, j < e - b → d1[u + j]? = d0[b + j]?)
    (hl : d1.length = u + (e - b)) (hd : (u : Int) = b + delta) (h8 : delta % 8 = 0)
    (hm : d1.length < 4294967296) (hf : fixBoundaries delta fuel d1 u = .ok d2) :
    Packed d2 u post (u + (e - b)) ∧ (∀ i, i < u → d2[i]? = d1[i]?) ∧ d2.length = d1.length := by
  induction h generalizing u d1 fuel with
  | nil hle =>
    cases fuel with
    | zero => cases hf
    | succ n =>
      rw [fixBoundaries, if_neg (by omega)] at hf
      cases hf
      rw [Nat.sub_self, Nat.add_zero]
      exact ⟨Packed.nil (by omega), fun _ _ => rfl, rfl⟩
  | @cons b e t p rest ht h0 h1 h2 hp hr ih =>
    have hle := hr.walk.le
    have hru := le_roundUp8 (b + 16 + p.length)
    generalize hbn : roundUp8 (b + 16 + p.length) = bn at *
    cases fuel with
    | zero => cases hf
    | succ n =>
      have e16 : extLen = 16 := rfl
      rw [fixBoundaries, if_pos (by omega), if_neg (by omega)] at hf
      simp only at hf
      have hsl : ∀ j k, j + k ≤ e - b → slice d1 (u + j) k = slice d0 (b + j) k := by
        intro j k hjk
        apply slice_congr
        intro i hi
        have := hs (j + i) (by omega)
        simpa only [Nat.add_assoc] using this
      have hb8 : u32At d1 (u + 8) = bn := by
        unfold u32At; rw [hsl 8 4 (by omega)]; exact h2
      obtain ⟨u', hu'⟩ : ∃ u' : Nat, (u' : Int) = bn + delta := ⟨(bn + delta).toNat, by omega⟩
      have hru' : roundUp8 (u + 16 + p.length) = u' := by
        unfold roundUp8 at hbn ⊢; omega
      have hsat : satAdd32 (u32At d1 (u + 8)) delta = u' := by
        rw [hb8]; unfold satAdd32; omega
      rw [hsat] at hf
      have hlen' : (u + 8) + (toLE 4 u').length ≤ d1.length := by rw [length_toLE]; omega
      have hout : ∀ i, i < u + 8 ∨ u + 12 ≤ i →
          (splice d1 (u + 8) (toLE 4 u'))[i]? = d1[i]? := by
        intro i hi
        apply getElem?_splice_outside hlen'
        rw [length_toLE]; omega
      obtain ⟨g1, g2, g3⟩ := ih (u := u') (d1 := splice d1 (u + 8) (toLE 4 u')) (fuel := n)
        (fun j hj => by
          rw [hout _ (by omega)]
          have e1 : u' + j = u + (bn - b + j) := by omega
          have e2 : bn + j = b + (bn - b + j) := by omega
          rw [e1, e2]
          exact hs _ (by omega))
        (by rw [length_splice hlen']; omega) hu' (by rw [length_splice hlen']; exact hm) hf
      have hlen2 : d2.length = d1.length := by rw [g3, length_splice hlen']
      have hd2 : ∀ i, i < u' → i < u + 8 ∨ u + 12 ≤ i → d2[i]? = d1[i]? := fun i hi hi' =>
        (g2 i hi).trans (hout i hi')
      refine ⟨?_, fun i hi => hd2 i (by omega) (by omega), hlen2⟩
      have e3 : u' + (e - bn) = u + (e - b) := by omega
      rw [e3] at g1
      have key : ∀ j k, j + k ≤ 8 ∨ 12 ≤ j ∧ j + k ≤ 16 + p.length →
          slice d2 (u + j) k = slice d0 (b + j) k := by
        intro j k hjk
        rw [← hsl j k (by omega)]
        apply slice_congr
        intro i hi
        exact hd2 _ (by omega) (by omega)
      refine Packed.cons ht ?_ ?_ ?_ ?_ (by rw [hru']; exact g1)
      · have := key 0 4 (by omega)
        simp only [Nat.add_zero] at this
        rw [this]; exact h0
      · rw [key 4 4 (by omega)]; exact h1
      · have : slice d2 (u + 8) 4 = toLE 4 u' := by
          rw [slice_congr (d := splice d1 (u + 8) (toLE 4 u')) (b := u + 8)
            (fun i hi => g2 _ (by omega))]
          exact slice_splice_same hlen' (by simp [length_toLE])
        rw [this, leNat_toLE_of_lt (by have : (256 : Nat) ^ 4 = 4294967296 := by decide
                                       omega), hru']
      · rw [key 16 _ (by omega)]; exact hp

/-! ## Finding the extension -/

theorem updateFind_packed {d : Bytes} {es : List Extn} {e : Nat} {t : ExtType} {off : Nat}
    {cur : Option (Nat × Nat)} (h : Packed d 168 es e) (he : Ends d e) (ht : t ≠ .none)
    (hf : updateFind t d (d.length + 1) assetLen = .ok (off, cur)) :
    (cur = none ∧ off = e ∧ lookup t es = none ∧ ∀ x ∈ es, x.1 ≠ t) ∨
    ∃ pre p post, es = pre ++ (t, p) :: post ∧ (∀ x ∈ pre, x.1 ≠ t) ∧ lookup t es = some p ∧
      Packed d 168 pre off ∧ Packed d off ((t, p) :: post) e ∧
      cur = some (p.length, roundUp8 (off + 16 + p.length)) := by
  have hlen := h.walk.length_le
  have hle := h.walk.le
  have e16 : extLen = 16 := rfl
  rw [show assetLen = 168 from rfl] at hf
  rcases h.split t with ⟨h1, h2⟩ | ⟨pre, p, post, m, rfl, h2, h3, h4, h5⟩
  · left
    have : d.length + 1 = es.length + ((d.length - es.length) + 1) := by omega
    rw [this, updateFind_skip h.walk h2, updateFind] at hf
    split at hf
    · split at hf
      · cases hf
      · rcases he.cases with hc | ⟨hc, hc2⟩
        · omega
        · simp only at hf
          rw [hc2, if_neg (by simpa using fun h => ht h.symm), if_pos rfl] at hf
          simp only [Except.ok.injEq, Prod.mk.injEq] at hf
          exact ⟨hf.2.symm, hf.1.symm, h1, h2⟩
    · simp only [Except.ok.injEq, Prod.mk.injEq] at hf
      exact ⟨hf.2.symm, hf.1.symm, h1, h2⟩
  · right
    have hlen' := h4.walk.length_le
    have hle' := h5.walk.le
    have : d.length + 1 = pre.length + ((d.length - pre.length) + 1) := by omega
    rw [this, updateFind_skip h4.walk h2, updateFind] at hf
    obtain ⟨g1, g2, g3, g4, g5, g6, g7, _⟩ := h5.walk.head
    rw [if_pos (by omega), if_neg (by omega)] at hf
    simp only at hf
    rw [g2, if_pos rfl] at hf
    simp only [Except.ok.injEq, Prod.mk.injEq] at hf
    obtain ⟨rfl, rfl⟩ := hf
    refine ⟨pre, p, post, rfl, h2, h3, h4, h5, ?_⟩
    rw [g4]
    cases h5 with
    | cons _ _ _ hb _ _ => rw [show (hdrAt d m).bnd = _ from hb]

/-! ## Moving the data -/

variable {E : Env} {L L' : Ledger} {a : Key} {payer sys : Option Key}

theorem resizeIf_data {c : Bool} {n : Nat} (h : resizeIf E c L n a payer sys = .ok L') :
    (L' a).data = if c then reallocBytes (L a).data n else (L a).data := by
  unfold resizeIf at h
  split at h
  · rename_i hc; rw [if_pos hc]; exact (resize_eff h).2.1
  · rename_i hc; cases h; rw [if_neg hc]

theorem memmove_ok {d d' : Bytes} {dst src n : Nat} (h : memmove d dst src n = .ok d')
    (hn : src + n ≤ d.length) :
    d'.length = d.length ∧ (∀ j, j < n → d'[dst + j]? = d[src + j]?) ∧
      ∀ i, i < dst → d'[i]? = d[i]? := by
  have hlen := memmove_length h
  unfold memmove at h
  split at h
  · rename_i h0; cases h; exact ⟨rfl, fun j hj => by omega, fun _ _ => rfl⟩
  · split at h
    · cases h
    · rename_i hc
      rw [not_or] at hc
      cases h
      have hl : (slice d src n).length = n := length_slice hn
      refine ⟨hlen, fun j hj => ?_, fun i hi => ?_⟩
      · rw [getElem?_splice (by omega), if_neg (by omega), hl, if_pos (by omega), getElem?_slice,
          if_pos (by omega)]
        congr 2; omega
      · exact getElem?_splice_outside (by omega) (Or.inl hi)

/-- The account after the data was moved: the part before the end of the header of the
extension is as before, the later extensions are moved as they are, and the account ends after
them unless nothing moves. -/
theorem updateMove_data {es : List Extn} {e b n u : Nat} {delta : Int} {len : Nat}
    (h : Walk (L a).data 168 es e) (he : Ends (L a).data e) (hes : es ≠ [])
    (hb : b ≤ e) (hd : (u : Int) = b + delta) (hlen : len = n → delta = 0)
    (hm : updateMove E L a payer sys (some (len, b)) n u delta = .ok L') :
    (∀ i, i < u → i < b → (L' a).data[i]? = (L a).data[i]?) ∧
    (∀ j, j < e - b → (L' a).data[u + j]? = (L a).data[b + j]?) ∧
    (delta = 0 → (L' a).data = (L a).data) ∧
    (delta ≠ 0 → (L' a).data.length = u + (e - b)) := by
  have hle := h.le
  unfold updateMove at hm
  simp only at hm
  split at hm
  · rename_i heq
    have h0 := hlen heq
    cases hm
    have : u = b := by omega
    subst this
    exact ⟨fun _ _ _ => rfl, fun _ _ => rfl, fun _ => rfl, fun h => absurd h0 h⟩
  · inv at hm
    obtain ⟨r, hr, hm⟩ := hm
    rcases lastExtension_walk h he with ⟨h1, h2⟩ | ⟨pre, t, p, m, _, _, _, h3⟩
    · exact absurd h2 hes
    · rw [h3, Except.ok.injEq] at hr
      subst hr
      inv at hm
      obtain ⟨L1, hm1, d1, hmv, hm2⟩ := hm
      have g1 := resizeIf_data hm1
      have g2 := resizeIf_data hm2
      rw [Ledger.setData_same] at g2
      simp only at g2
      have hsz : ((e : Int) + delta).toNat = u + (e - b) := by omega
      rw [hsz] at g1 g2
      by_cases hpos : 0 < delta
      · have hneg : ¬ delta < 0 := by omega
        simp only [decide_eq_true hpos, if_true] at g1
        simp only [decide_eq_false hneg, Bool.false_eq_true, if_false] at g2
        have hl1 : (L1 a).data.length = u + (e - b) := by rw [g1, length_reallocBytes]
        obtain ⟨m1, m2, m3⟩ := memmove_ok hmv (by omega)
        rw [g2]
        have hget : ∀ i, i < e → (L1 a).data[i]? = (L a).data[i]? := fun i hi => by
          rw [g1]; exact getElem?_reallocBytes (by omega) (by omega)
        refine ⟨fun i hi hi' => ?_, fun j hj => ?_, fun h0 => by omega, fun _ => by omega⟩
        · rw [m3 i hi, hget i (by omega)]
        · rw [m2 j hj, hget _ (by omega)]
      · simp only [decide_eq_false hpos, Bool.false_eq_true, if_false] at g1
        by_cases hneg : delta < 0
        · simp only [decide_eq_true hneg, if_true] at g2
          rw [g1] at hmv
          obtain ⟨m1, m2, m3⟩ := memmove_ok hmv (by omega)
          rw [g2]
          refine ⟨fun i hi hi' => ?_, fun j hj => ?_, fun h0 => by omega,
            fun _ => by rw [length_reallocBytes]⟩
          · rw [getElem?_reallocBytes (by omega) (by omega), m3 i hi]
          · rw [getElem?_reallocBytes (by omega) (by omega), m2 j hj]
        · simp only [decide_eq_false hneg, Bool.false_eq_true, if_false] at g2
          have h0 : delta = 0 := by omega
          have hub : u = b := by omega
          subst hub
          rw [g1] at hmv
          have hd1 : d1 = (L a).data := by
            unfold memmove at hmv
            split at hmv
            · cases hmv; rfl
            · split at hmv
              · cases hmv
              · cases hmv; exact splice_slice_self (by omega)
          rw [g2, hd1]
          exact ⟨fun _ _ _ => rfl, fun _ _ => rfl, fun _ => rfl, fun h => absurd h0 h⟩

/-! ## Writing the extension -/

theorem writeHdr_ok {d d' : Bytes} {o ty n b : Nat} (h : writeHdr d o ty n b = .ok d') :
    o + 16 ≤ d.length ∧ d'.length = d.length ∧ slice d' o 4 = toLE 4 ty ∧
      slice d' (o + 4) 4 = toLE 4 n ∧ slice d' (o + 8) 4 = toLE 4 b ∧
      ∀ i, i < o ∨ o + 12 ≤ i → d'[i]? = d[i]? := by
  have hlen := writeHdr_length h
  unfold writeHdr at h
  have e16 : extLen = 16 := rfl
  split at h
  · cases h
  · cases h
    unfold setHdr at *
    have hl12 : (toLE 4 ty ++ toLE 4 n ++ toLE 4 b).length = 12 := by
      simp only [List.length_append, length_toLE]
    have hfit : o + (toLE 4 ty ++ toLE 4 n ++ toLE 4 b).length ≤ d.length := by omega
    have hs : ∀ k m, k + m ≤ 12 →
        slice (splice d o (toLE 4 ty ++ toLE 4 n ++ toLE 4 b)) (o + k) m =
          slice (toLE 4 ty ++ toLE 4 n ++ toLE 4 b) k m := by
      intro k m hk
      apply slice_congr
      intro i hi
      rw [getElem?_splice (by omega), if_neg (by omega), if_pos (by omega)]
      congr 1; omega
    refine ⟨by omega, hlen, ?_, ?_, ?_, fun i hi =>
      getElem?_splice_outside hfit (by omega)⟩
    · have := hs 0 4 (by omega)
      rw [Nat.add_zero] at this
      rw [this]
      unfold slice
      rw [List.drop_zero, List.append_assoc, List.take_append_of_le_length (by simp [length_toLE]),
        List.take_of_length_le (by simp [length_toLE])]
    · rw [hs 4 4 (by omega)]
      unfold slice
      rw [List.append_assoc, List.drop_append_of_le_length (by simp [length_toLE]),
        List.drop_of_length_le (by simp [length_toLE]), List.nil_append,
        List.take_append_of_le_length (by simp [length_toLE]),
        List.take_of_length_le (by simp [length_toLE])]
    · rw [hs 8 4 (by omega)]
      unfold slice
      have : (toLE 4 ty ++ toLE 4 n ++ toLE 4 b).drop 8 = toLE 4 b := by
        rw [List.drop_append_of_le_length (by simp [length_toLE]),
          List.drop_of_length_le (by simp [length_toLE]), List.nil_append]
      rw [this, List.take_of_length_le (by simp [length_toLE])]

theorem setExt_none {t : ExtType} {p : Bytes} {es : List Extn} (h : ∀ x ∈ es, x.1 ≠ t) :
    setExt t p es = es ++ [(t, p)] := by
  induction es with
  | nil => rfl
  | cons x xs ih =>
    obtain ⟨t', p'⟩ := x
    have := h (t', p') (by simp)
    rw [setExt, if_neg this, ih fun y hy => h y (by simp [hy])]; rfl

theorem setExt_some {t : ExtType} {p q : Bytes} {pre post : List Extn} (h : ∀ x ∈ pre, x.1 ≠ t) :
    setExt t p (pre ++ (t, q) :: post) = pre ++ (t, p) :: post := by
  induction pre with
  | nil => simp [setExt]
  | cons x xs ih =>
    obtain ⟨t', p'⟩ := x
    have := h (t', p') (by simp)
    rw [List.cons_append, setExt, if_neg this, ih fun y hy => h y (by simp [hy])]; rfl

/-- An extension written at `o` in front of a packed area. -/
theorem packed_written {d0 d1 d2 d3 : Bytes} {o u : Nat} {t : ExtType} {pl : Bytes}
    (ht : t ≠ .none) (hu : u = roundUp8 (o + 16 + pl.length)) (hmax : u < 4294967296)
    (hw : writeHdr d0 o t.toU32 pl.length u = .ok d1)
    (hfix : ∀ i, i < u → d2[i]? = d1[i]?) (hl2 : d2.length = d1.length) (hul : u ≤ d1.length)
    (hc : copyData d2 (o + 16) pl = .ok d3) {rest : List Extn} {e : Nat}
    (hrest : Packed d2 u rest e) :
    Packed d3 o ((t, pl) :: rest) e ∧ d3.length = d0.length ∧
      (∀ i, i < o → d3[i]? = d0[i]?) ∧ ∀ i, u ≤ i → d3[i]? = d2[i]? := by
  obtain ⟨w1, w2, w3, w4, w5, w6⟩ := writeHdr_ok hw
  obtain ⟨rfl, hcl⟩ := copyData_ok hc
  have hru := le_roundUp8 (o + 16 + pl.length)
  have hle := hrest.walk.le
  have hfit : o + 16 + pl.length ≤ d2.length := by omega
  have e256 : (256 : Nat) ^ 4 = 4294967296 := by decide
  have htl : t.toU32 < 256 ^ 4 := by cases t <;> decide
  have hout : ∀ i, i < o + 16 ∨ o + 16 + pl.length ≤ i →
      (splice d2 (o + 16) pl)[i]? = d2[i]? := fun i hi => getElem?_splice_outside hfit hi
  have hsl : ∀ j n, j + n ≤ 16 → slice (splice d2 (o + 16) pl) (o + j) n = slice d1 (o + j) n := by
    intro j n hj
    apply slice_congr
    intro i hi
    rw [hout _ (by omega), hfix _ (by omega)]
  refine ⟨?_, by rw [length_splice hfit, hl2, w2], fun i hi => ?_, fun i hi => hout i (by omega)⟩
  · refine Packed.cons ht ?_ ?_ ?_ ?_ ?_
    · have := hsl 0 4 (by omega)
      simp only [Nat.add_zero] at this
      rw [this, w3, leNat_toLE_of_lt htl]
    · rw [hsl 4 4 (by omega), w4, leNat_toLE_of_lt (by omega)]
    · rw [hsl 8 4 (by omega), w5, leNat_toLE_of_lt (by omega), hu]
    · exact slice_splice_same hfit rfl
    · rw [← hu]
      exact hrest.congr (by rw [length_splice hfit]; omega) (fun i hi _ => hout i (by omega))
  · rw [hout i (by omega), hfix i (by omega), w6 i (by omega)]

theorem wrapI32_small {x : Int} (h1 : -2147483648 ≤ x) (h2 : x < 2147483648) : wrapI32 x = x := by
  unfold wrapI32; omega

theorem fixBoundaries_past {delta : Int} {fuel : Nat} {d d' : Bytes} {c : Nat}
    (hc : d.length ≤ c) (h : fixBoundaries delta fuel d c = .ok d') : d' = d := by
  cases fuel with
  | zero => cases h
  | succ n => rw [fixBoundaries, if_neg (by omega)] at h; cases h; rfl

/-- Updating an extension of a packed account. -/
theorem updateFinish_packed {t : ExtType} {off : Nat} {cur : Option (Nat × Nat)} {pl : Bytes}
    {es : List Extn} (hes : CleanExts (L a).data es) (ht : t ≠ .none)
    (hf : updateFind t (L a).data ((L a).data.length + 1) assetLen = .ok (off, cur))
    (h : updateFinish E L a payer sys t off cur pl = .ok L')
    (hmax : (L a).data.length ≤ maxDataLen) (hmax' : (L' a).data.length ≤ maxDataLen) :
    CleanExts (L' a).data (setExt t pl es) ∧ ∀ i, i < 168 → (L' a).data[i]? = (L a).data[i]? := by
  obtain ⟨e, hp, hz⟩ := hes
  have hle := hp.walk.le
  unfold updateFinish at h
  inv at h
  obtain ⟨L1, hmv, d1, hw, d2, hfx, d3, hcp, rfl⟩ := h
  rw [Ledger.setData_same] at hmax' ⊢
  simp only at hmax' ⊢
  have e16 : extLen = 16 := rfl
  have emax : maxDataLen = 10485760 := rfl
  have hfinal : d3.length = (L1 a).data.length := by
    rw [copyData_length hcp, fixBoundaries_length hfx, writeHdr_length hw]
  have hpl : off + 16 + pl.length ≤ maxDataLen := by
    have w1 := (writeHdr_ok hw).1
    rcases (copyData_ok hcp).2 with rfl | hle
    · simp only [List.length_nil]; omega
    · rw [fixBoundaries_length hfx, writeHdr_length hw] at hle
      omega
  simp only [show extLen = 16 from rfl, align8_eq] at hmv hw hfx hcp
  have hru := le_roundUp8 (off + 16 + pl.length)
  have hrub : roundUp8 (off + 16 + pl.length) < off + 16 + pl.length + 8 := by
    unfold roundUp8; omega
  rcases updateFind_packed hp (Or.inr hz) ht hf with ⟨rfl, rfl, _, hno⟩ |
      ⟨pre, p, post, rfl, hpre, _, h4, h5, rfl⟩
  · -- a new extension at the end
    simp only at *
    rw [setExt_none hno]
    unfold updateMove at hmv
    have hd1 := (resize_eff hmv).2.1
    simp only at hmv hfx
    have hl1 : (L1 a).data.length = roundUp8 (off + 16 + pl.length) := by
      rw [hd1, length_reallocBytes]
    have hd2 := fixBoundaries_past (by rw [writeHdr_length hw]; omega) hfx
    obtain ⟨g1, g2, g3, g4⟩ := packed_written ht rfl (by omega) hw
      (fun i _ => by rw [hd2]) (by rw [hd2]) (by rw [writeHdr_length hw]; omega) hcp
      (Packed.nil (by rw [hd2, writeHdr_length hw]; omega))
    have hsame : ∀ i, i < off → d3[i]? = (L a).data[i]? := fun i hi => by
      rw [g3 i hi, hd1]; exact getElem?_reallocBytes (by omega) (by omega)
    refine ⟨⟨_, packed_append.mpr ⟨off, hp.congr (by omega) (fun i _ hi => hsame i hi), g1⟩, ?_⟩,
      fun i hi => hsame i (by omega)⟩
    have hnil : slice d3 (roundUp8 (off + 16 + pl.length)) 4 = [] := by
      unfold slice
      rw [List.drop_of_length_le (by omega)]; rfl
    rw [hnil]; rfl
  · -- an existing one
    simp only at *
    rw [setExt_some hpre]
    have h5' := h5
    cases h5 with
    | @cons _ _ _ _ _ htn h50 h51 h52 h5p h5r =>
    have hrup := le_roundUp8 (off + 16 + p.length)
    have hle4 := h4.walk.le
    have hle5 := h5r.walk.le
    generalize hbdef : roundUp8 (off + 16 + p.length) = b at *
    generalize hudef : roundUp8 (off + 16 + pl.length) = u at *
    have h8b : b % 8 = 0 := by rw [← hbdef]; unfold roundUp8; omega
    have h8u : u % 8 = 0 := by rw [← hudef]; unfold roundUp8; omega
    have hdel : wrapI32 ((u : Int) - (b : Int)) = (u : Int) - b :=
      wrapI32_small (by omega) (by omega)
    rw [hdel] at hmv hfx
    obtain ⟨m1, m2, m3, m4⟩ := updateMove_data hp.walk (Or.inr hz) (by simp) (by omega) (by omega)
      (by intro h; rw [h, hudef] at hbdef; omega) hmv
    have w1 := writeHdr_ok hw
    by_cases hdz : (u : Int) - b = 0
    · have hub : u = b := by omega
      subst hub
      have hd2 : d2 = d1 := by rw [hdz] at hfx; exact fixBoundaries_zero hfx
      rw [m3 hdz] at hw w1 hfinal
      have hrest : Packed d2 u post e := by
        rw [hd2]
        exact h5r.congr (by omega) (fun i hi _ => w1.2.2.2.2.2 i (by omega))
      obtain ⟨g1, g2, g3, g4⟩ := packed_written ht hudef.symm (by omega) hw
        (fun i _ => by rw [hd2]) (by rw [hd2]) (by omega) hcp hrest
      refine ⟨⟨e, packed_append.mpr ⟨off, h4.congr (by omega) (fun i _ hi => g3 i hi), g1⟩, ?_⟩,
        fun i hi => g3 i (by omega)⟩
      rw [← hz]
      congr 1
      apply slice_congr
      intro i hi
      rw [g4 _ (by omega), hd2, w1.2.2.2.2.2 _ (by omega)]
    · have hlen1 := m4 hdz
      have hd1len : d1.length = u + (e - b) := by rw [w1.2.1, hlen1]
      obtain ⟨f1, f2, f3⟩ := fixBoundaries_shift h5r
        (d1 := d1) (u := u) (fun j hj => by
          rw [w1.2.2.2.2.2 _ (by omega)]; exact m2 j hj)
        hd1len (by omega) (by omega) (by omega) hfx
      obtain ⟨g1, g2, g3, g4⟩ := packed_written ht hudef.symm (by omega) hw f2 f3 (by omega) hcp f1
      have hsame : ∀ i, i < off → d3[i]? = (L a).data[i]? := fun i hi => by
        rw [g3 i hi, m1 i (by omega) (by omega)]
      refine ⟨⟨_, packed_append.mpr ⟨off, h4.congr (by omega) (fun i _ hi => hsame i hi), g1⟩, ?_⟩,
        fun i hi => hsame i (by omega)⟩
      have hnil : slice d3 (u + (e - b)) 4 = [] := by
        unfold slice
        rw [List.drop_of_length_le (by omega)]; rfl
      rw [hnil]; rfl

end Verif
