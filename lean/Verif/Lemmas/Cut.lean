import Verif.Spec.Cut
import Verif.Lemmas.Shape
import Verif.Lemmas.Edits

/-!
# Reading an account after Remove
-/

namespace Verif

open Spec

theorem getElem?_cut {off b : Nat} {d : Bytes} (hb : off ≤ b) (hd : b ≤ d.length) (i : Nat) :
    (cut off b d)[i]? = if i < off then d[i]? else d[i + (b - off)]? := by
  unfold cut
  split
  · rename_i h
    rw [List.getElem?_append_left (by rw [List.length_take]; omega), List.getElem?_take_of_lt h]
  · rename_i h
    rw [List.getElem?_append_right (by rw [List.length_take]; omega), List.length_take, List.getElem?_drop]
    congr 1
    omega

theorem length_cut {off b : Nat} {d : Bytes} (hb : off ≤ b) (hd : b ≤ d.length) :
    (cut off b d).length = d.length - (b - off) := by
  unfold cut
  rw [List.length_append, List.length_take, List.length_drop]
  omega

section
variable {E : Env} {L L' : Ledger} {a au r : Key} {A : Asset} {t : ExtType}

/-- Remove cuts the extension out, and changes nothing else in the account. -/
theorem processRemove_cut (hs : Stores E.program L a A) (ht : t ≠ .none)
    (h : processRemove E L a au r t = .ok L') :
    E.signer au = true ∧ au = A.authority ∧ A.mutableByte ≠ 0 ∧ (L' a).owner = E.program ∧
      ∃ pre p post, FoundAt t pre p post A.exts ∧
        (L' a).data = cut (packedEnd 168 pre) (packedEnd 168 (pre ++ [(t, p)])) (L a).data := by
  obtain ⟨⟨h1, h2, h3⟩, h4, h5, e, h6, h7⟩ := id hs
  unfold processRemove at h
  inv at h
  obtain ⟨hsig, _, _, hau, hmu, y, hf, h⟩ := h
  cases y with
  | none => cases h
  | some y =>
    obtain ⟨off, b⟩ := y
    simp only at h
    inv at h
    obtain ⟨_, d1, hm, hr⟩ := h
    obtain ⟨pre, p, post, hes, hpre, k4, k5, hb⟩ := removeFind_packed h6 h7 ht hf
    simp only at k4 k5 hb
    have eoff : packedEnd 168 pre = off := k4.end_eq.symm
    have eb : packedEnd 168 (pre ++ [(t, p)]) = b := by
      rw [packedEnd_append, eoff, hb]
      rfl
    have hle4 := k4.walk.le
    have hle7 := le_roundUp8 (off + 16 + p.length)
    have hbl : b ≤ (L a).data.length := by
      cases k5 with
      | cons _ _ _ _ _ kr =>
        have := kr.walk.le
        omega
    obtain ⟨m1, m2, m3⟩ := memmove_ok hm (by omega)
    have hd := (resize_eff hr).2.1
    rw [Ledger.setData_same] at hd
    simp only at hd
    have hget : ∀ i, i < (L a).data.length - (b - off) → (L' a).data[i]? = d1[i]? := fun i hi => by
      rw [hd]; exact getElem?_reallocBytes (by omega) hi
    have hlen' : (L' a).data.length = (L a).data.length - (b - off) := by
      rw [hd, length_reallocBytes]
    refine ⟨hsig, ?_, ?_, ?_, pre, p, post, ⟨hes, hpre⟩, ?_⟩
    · rw [h5]; exact hau.symm
    · rw [h5]
      intro h0
      unfold hMutable at hmu
      unfold Asset.of assetAt view at h0
      simp only at h0
      rw [h0] at hmu
      cases hmu
    · rw [(resize_eff hr).2.2.1, Ledger.setData_same]
      exact h1
    · rw [eoff, eb]
      apply List.ext_getElem?
      intro i
      rw [getElem?_cut (by omega) hbl]
      by_cases hi : i < (L a).data.length - (b - off)
      · rw [hget i hi]
        split
        · rename_i hlt
          exact m3 i hlt
        · rename_i hge
          have := m2 (i - off) (by omega)
          rw [show off + (i - off) = i by omega] at this
          rw [this]
          congr 1
          omega
      · rw [List.getElem?_eq_none (by omega), if_neg (by omega), List.getElem?_eq_none (by omega)]

end

section
variable {d : Bytes} {pre post : List Extn} {t : ExtType} {p : Bytes} {e : Nat}

/-- The parts of the account after the cut. -/
theorem cut_parts (h : Packed d 168 (pre ++ (t, p) :: post) e) :
    let off := packedEnd 168 pre
    let b := packedEnd 168 (pre ++ [(t, p)])
    off ≤ b ∧ b ≤ d.length ∧ Walk (cut off b d) 168 pre off ∧
      ∀ u q rest, post = (u, q) :: rest → u ≠ .none ∧ off + 16 + q.length ≤ (cut off b d).length ∧
        (hdrAt (cut off b d) off).ty = u.toU32 ∧ (hdrAt (cut off b d) off).len = q.length ∧
        (hdrAt (cut off b d) off).bnd = staleEnd pre t p post ∧
        slice (cut off b d) (off + 16) q.length = q := by
  intro off b
  obtain ⟨m, k4, k5⟩ := packed_append.mp h
  have eoff : off = m := k4.end_eq.symm
  have hb : b = roundUp8 (m + 16 + p.length) := by
    show packedEnd 168 (pre ++ [(t, p)]) = _
    rw [packedEnd_append, show packedEnd 168 pre = m from eoff]
    rfl
  have hle4 := k4.walk.le
  have hle7 := le_roundUp8 (m + 16 + p.length)
  cases k5 with
  | cons _ _ _ _ _ kr =>
  have hle5 := kr.walk.le
  have hob : off ≤ b := by omega
  have hbl : b ≤ d.length := by omega
  refine ⟨hob, hbl, ?_, ?_⟩
  · rw [eoff]
    refine k4.walk.congr (by rw [length_cut (by omega) hbl]; omega) (fun i _ hi => ?_)
    rw [getElem?_cut (by omega) hbl, if_pos hi]
  · intro u q rest hpost
    subst hpost
    have hsl : ∀ j n, slice (cut off b d) (off + j) n = slice d (b + j) n := by
      intro j n
      refine slice_congr fun i _ => ?_
      rw [getElem?_cut hob hbl, if_neg (by omega)]
      congr 1
      omega
    rw [← hb] at kr
    cases kr with
    | cons g1 g2 g3 g4 g5 g6 =>
    have hle6 := g6.walk.le
    have hle8 := le_roundUp8 (b + 16 + q.length)
    refine ⟨g1, ?_, ?_, ?_, ?_, ?_⟩
    · rw [length_cut hob hbl]
      omega
    · have := hsl 0 4
      simp only [Nat.add_zero] at this
      show leNat (slice (cut off b d) off 4) = _
      rw [this, g2]
    · show leNat (slice (cut off b d) (off + 4) 4) = _
      rw [hsl, g3]
    · show leNat (slice (cut off b d) (off + 8) 4) = _
      rw [hsl, g4]
      unfold staleEnd
      rw [show (t, p) :: List.take 1 ((u, q) :: rest) = [(t, p)] ++ [(u, q)] from rfl, ← List.append_assoc,
        packedEnd_append]
      rfl
    · rw [hsl, g5]

theorem lookup_append {u : ExtType} (xs ys : List Extn) :
    lookup u (xs ++ ys) = (lookup u xs).or (lookup u ys) := by
  induction xs with
  | nil => rfl
  | cons x xs ih =>
    obtain ⟨t', p'⟩ := x
    rw [List.cons_append, lookup, lookup]
    split
    · rfl
    · exact ih

/-- What comes before the removed extension, and the first extension after it, is still read. -/
theorem cut_reads {u : ExtType} {q : Bytes} (h : Packed d 168 (pre ++ (t, p) :: post) e) (hu : u ≠ .none)
    (hq : lookup u (pre ++ post.take 1) = some q) :
    assetGet u (cut (packedEnd 168 pre) (packedEnd 168 (pre ++ [(t, p)])) d) = .ok (some q) := by
  obtain ⟨_, _, hw, hn⟩ := cut_parts h
  generalize packedEnd 168 (pre ++ [(t, p)]) = b at *
  generalize hoff : packedEnd 168 pre = off at *
  generalize cut off b d = d' at *
  have hlen := hw.length_le
  have hle := hw.le
  have e16 : extLen = 16 := rfl
  unfold assetGet find
  rcases hw.split u with ⟨h1, h2⟩ | ⟨pre', p', post', m, he, h2, h3, h4, h5⟩
  · rw [lookup_append, h1, Option.none_or] at hq
    cases post with
    | nil => cases hq
    | cons x rest =>
      obtain ⟨v, q'⟩ := x
      obtain ⟨g1, g2, g3, g4, _, g6⟩ := hn v q' rest rfl
      have hv : v = u := by
        by_contra hne
        simp [lookup, hne] at hq
      subst hv
      have : q' = q := by simpa [lookup] using hq
      subst this
      have : d'.length + 1 = pre.length + ((d'.length - pre.length) + 1) := by omega
      rw [this, show assetLen = 168 from rfl, findFrom_skip hw h2, findFrom, if_pos (by omega)]
      simp only
      rw [g3, if_pos (ofU32_toU32 _)]
      show (payloadAt d' off >>= fun y => .ok (some y)) = _
      unfold payloadAt
      simp only
      rw [g4, if_pos (by omega), e16, g6]
      rfl
  · have hq' : p' = q := by
      rw [lookup_append, h3] at hq
      exact Option.some.inj hq
    subst hq'
    have hlen' := h4.length_le
    have hle' := h5.le
    have : d'.length + 1 = pre'.length + ((d'.length - pre'.length) + 1) := by omega
    rw [this, show assetLen = 168 from rfl, findFrom_skip h4 h2, findFrom]
    obtain ⟨g1, g2, g3, _⟩ := h5.head
    rw [if_pos g1]
    simp only
    rw [g2, if_pos rfl]
    show (payloadAt d' m >>= fun y => .ok (some y)) = _
    rw [payloadAt_walk h5]
    rfl

/-- If the search then leaves the account, nothing else is found. -/
theorem cut_loses {u : ExtType} (h : Packed d 168 (pre ++ (t, p) :: post) e) (hu : u ≠ .none) (hne : post ≠ [])
    (hend : (cut (packedEnd 168 pre) (packedEnd 168 (pre ++ [(t, p)])) d).length < staleEnd pre t p post + 16) :
    assetGet u (cut (packedEnd 168 pre) (packedEnd 168 (pre ++ [(t, p)])) d) =
      .ok (lookup u (pre ++ post.take 1)) := by
  cases hq : lookup u (pre ++ post.take 1) with
  | some q => exact cut_reads h hu hq
  | none =>
    obtain ⟨_, _, hw, hn⟩ := cut_parts h
    generalize packedEnd 168 (pre ++ [(t, p)]) = b at *
    generalize packedEnd 168 pre = off at *
    generalize cut off b d = d' at *
    have hlen := hw.length_le
    have hle := hw.le
    have e16 : extLen = 16 := rfl
    unfold assetGet find
    rcases hw.split u with ⟨h1, h2⟩ | ⟨pre', p', post', m, he, h2, h3, h4, h5⟩
    · rw [lookup_append, h1, Option.none_or] at hq
      cases post with
      | nil => exact absurd rfl hne
      | cons x rest =>
        obtain ⟨v, q'⟩ := x
        obtain ⟨g1, g2, g3, g4, g5, g6⟩ := hn v q' rest rfl
        have hv : v ≠ u := by
          rintro rfl
          simp [lookup] at hq
        have : d'.length + 1 = pre.length + (((d'.length - pre.length) - 1 + 1) + 1) := by omega
        rw [this, show assetLen = 168 from rfl, findFrom_skip hw h2, findFrom, if_pos (by omega)]
        simp only
        rw [g3, ofU32_toU32, if_neg (by simpa using hv), if_neg (by simpa using g1), g5, findFrom,
          if_neg (by omega)]
        rfl
    · rw [lookup_append, h3] at hq
      cases hq

end

end Verif
