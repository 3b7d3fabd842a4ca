import Verif.Lemmas.Shape
import Verif.Lemmas.Effect
import Verif.Lemmas.Lookup
import Verif.Lemmas.Readable
import Verif.Spec.Moves

/-!
# Every instruction moves assets as the state machine says
-/

namespace Verif

open Verif.Spec

section
variable {p : Key} {L L' : Ledger} {k : Key} {A : Asset}

/-- Replacing the data of an extension in place. -/
theorem packed_replace {d : Bytes} {pre post : List Extn} {t : ExtType} {pl q : Bytes} {m e : Nat}
    (h1 : Packed d 168 pre m) (h2 : Packed d m ((t, pl) :: post) e)
    (hz : leNat (slice d e 4) = 0) (hq : q.length = pl.length) :
    CleanExts (splice d (m + 16) q) (pre ++ (t, q) :: post) ∧
      ∀ i, i < 168 → (splice d (m + 16) q)[i]? = d[i]? := by
  have hle1 := h1.walk.le
  cases h2 with
  | cons ht k0 k1 k2 kp kr =>
    have hle2 := kr.walk.le
    have hru := le_roundUp8 (m + 16 + pl.length)
    have hfit : m + 16 + q.length ≤ d.length := by omega
    have hout : ∀ i, i < m + 16 ∨ m + 16 + q.length ≤ i → (splice d (m + 16) q)[i]? = d[i]? :=
      fun i hi => getElem?_splice_outside hfit hi
    have hsl : ∀ j n, j + n ≤ 16 → slice (splice d (m + 16) q) (m + j) n = slice d (m + j) n :=
      fun j n hj => slice_congr fun i hi => hout _ (by omega)
    refine ⟨⟨e, packed_append.mpr ⟨m, h1.congr (by rw [length_splice hfit]; omega)
      (fun i _ hi => hout i (by omega)), Packed.cons ht ?_ ?_ ?_ ?_ ?_⟩, ?_⟩,
      fun i hi => hout i (by omega)⟩
    · have := hsl 0 4 (by omega)
      simp only [Nat.add_zero] at this
      rw [this]; exact k0
    · rw [hsl 4 4 (by omega), k1, hq]
    · rw [hsl 8 4 (by omega), k2, hq]
    · exact slice_splice_same hfit rfl
    · rw [hq]
      exact kr.congr (by rw [length_splice hfit]; omega) (fun i hi _ => hout i (by omega))
    · rw [← hz]
      congr 1
      exact slice_congr fun i hi => hout _ (by omega)

theorem Spec.Stores.replace (h : Stores p L k A) {t : ExtType} (ht : t ≠ .none) {off : Nat}
    {pl q : Bytes} (hg : extGet t ((L k).data.drop 168) = .ok (some (off, pl)))
    (hq : q.length = pl.length) (ho : (L' k).owner = (L k).owner)
    (hd : (L' k).data = splice (L k).data (168 + off) q) :
    lookup t A.exts = some pl ∧ Stores p L' k { A with exts := setExt t q A.exts } := by
  obtain ⟨⟨h1, h2, h3⟩, h4, h5, e, h6, h7⟩ := id h
  rcases extGet_walk h6.walk (Or.inr h7) ht with ⟨_, g2⟩ |
    ⟨pre, pl', post, m, g1, g2, g3, g4, g5, g6⟩
  · rw [g2] at hg; cases hg
  · rw [hg] at g6
    simp only [Except.ok.injEq, Option.some.injEq, Prod.mk.injEq] at g6
    obtain ⟨rfl, rfl⟩ := g6
    have hle := g4.le
    have hoff : 168 + (m - 168 + 16) = m + 16 := by omega
    rw [hoff] at hd
    obtain ⟨m', p1, p2⟩ := packed_append.mp (g1 ▸ h6)
    have hmm : m' = m := by
      have := p1.walk
      clear hd hoff hg g5 g2
      induction pre generalizing A with
      | nil => cases p1; cases g4; rfl
      | cons x xs ih => exact walk_end_unique p1.walk g4
    subst hmm
    obtain ⟨c1, c2⟩ := packed_replace p1 p2 h7 hq
    refine ⟨g3, ?_⟩
    have hlen : (L' k).data.length = (L k).data.length := by
      rw [hd]
      have := g5.le
      exact length_splice (by
        cases p2 with
        | cons _ _ _ _ _ kr =>
          have := kr.walk.le
          have := le_roundUp8 (m' + 16 + pl.length)
          omega)
    refine h.exts ho (by omega) (fun i hi => by rw [hd]; exact c2 i hi) ?_
    rw [hd, g1, setExt_some g2]
    exact c1
where
  walk_end_unique {d : Bytes} {off m m' : Nat} {es : List Extn} (h : Walk d off es m)
      (h' : Walk d off es m') : m = m' := by
    induction h with
    | nil => cases h'; rfl
    | cons _ _ _ h2 _ _ _ ih =>
      cases h' with
      | cons _ _ _ h2' _ _ hr' =>
        rw [h2] at h2'
        subst h2'
        exact ih hr'

/-- The same for `Asset::get_mut`. -/
theorem Spec.Stores.replaceMut (h : Stores p L k A) {t : ExtType} (ht : t ≠ .none) {off : Nat}
    {pl q : Bytes} (hg : assetGetMut t (L k).data = .ok (some (off, pl)))
    (hq : q.length = pl.length) (ho : (L' k).owner = (L k).owner)
    (hd : (L' k).data = splice (L k).data off q) :
    lookup t A.exts = some pl ∧ Stores p L' k { A with exts := setExt t q A.exts } := by
  obtain ⟨_, _, _, e, h6, h7⟩ := id h
  unfold assetGetMut at hg
  inv at hg
  obtain ⟨r, hf, hg⟩ := hg
  rcases find_walk h6.walk (Or.inr h7) ht with ⟨_, _, g2⟩ |
    ⟨pre, pl', post, m, g1, g2, g3, g4, g5, g6⟩
  · rw [g2] at hf; cases hf; cases hg
  · rw [g6] at hf
    cases hf
    inv at hg
    obtain ⟨q', hq', hg⟩ := hg
    simp only [Option.some.injEq, Prod.mk.injEq] at hg
    obtain ⟨rfl, rfl⟩ := hg
    rw [payloadAt_walk g5] at hq'
    cases hq'
    have hle := g4.le
    rcases extGet_walk h6.walk (Or.inr h7) ht with ⟨k1, _⟩ |
      ⟨pre', pl'', post', m', k1, k2, k3, k4, k5, k6⟩
    · rw [k1] at g3; cases g3
    · rw [g3] at k3
      cases k3
      have hm : m' = m := by
        rcases find_walk h6.walk (Or.inr h7) ht with ⟨_, _, e2⟩ | ⟨_, _, _, _, e1, e2, e3, e4, e5, e6⟩
        · rw [e2] at g6; cases g6
        · have : pre' = pre := by
            have := g1.symm.trans k1
            exact (split_unique this g2 k2).symm
          subst this
          exact Stores.replace.walk_end_unique k4 g4
      subst hm
      exact h.replace ht k6 hq ho (by
        have : m' + extLen = 168 + (m' - 168 + 16) := by have : extLen = 16 := rfl; omega
        rw [hd, this])
where
  split_unique {pre pre' post post' : List Extn} {t : ExtType} {a b : Bytes}
      (h : pre ++ (t, a) :: post = pre' ++ (t, b) :: post') (h1 : ∀ x ∈ pre, x.1 ≠ t)
      (h2 : ∀ x ∈ pre', x.1 ≠ t) : pre = pre' := by
    induction pre generalizing pre' with
    | nil =>
      cases pre' with
      | nil => rfl
      | cons y ys =>
        simp only [List.nil_append, List.cons_append, List.cons.injEq] at h
        exact absurd (by rw [← h.1]) (h2 y (by simp))
    | cons x xs ih =>
      cases pre' with
      | nil =>
        simp only [List.nil_append, List.cons_append, List.cons.injEq] at h
        exact absurd (by rw [h.1]) (h1 x (by simp))
      | cons y ys =>
        simp only [List.cons_append, List.cons.injEq] at h
        rw [h.1, ih h.2 (fun z hz => h1 z (by simp [hz])) (fun z hz => h2 z (by simp [hz]))]

/-! ## Fields -/

theorem Spec.Stores.init (h : Stores p L k A) : Initialized (L k).data := ⟨h.1.2.1, h.1.2.2⟩

theorem Spec.Stores.manager (h : Stores p L k A) {m : Option Delegate}
    (hm : managerOf (L k).data = .ok m) : m = A.manager := by
  obtain ⟨_, _, _, e, h6, h7⟩ := id h
  unfold managerOf at hm
  inv at hm
  obtain ⟨r, hr, hm⟩ := hm
  rw [show assetLen = 168 from rfl] at hr
  unfold Asset.manager
  rcases extGet_walk (t := .manager) h6.walk (Or.inr h7) (by decide) with ⟨g1, g2⟩ |
    ⟨pre, pl', post, m, g1, g2, g3, g4, g5, g6⟩
  · rw [g2] at hr; cases hr; rw [g1]; exact (pure_ok.mp hm).symm
  · rw [g6] at hr
    cases hr
    inv at hm
    obtain ⟨x, hx, rfl⟩ := hm
    rw [g3]
    unfold readManager at hx
    split at hx
    · cases hx
    · cases hx; rfl

theorem Spec.Stores.hasManager (h : Stores p L k A) {m : Option Delegate}
    (hm : HasManager (L k).data m) : m = A.manager := by
  obtain ⟨_, _, _, e, h6, h7⟩ := id h
  obtain ⟨q, h1, _, rfl⟩ := hm
  obtain ⟨q', h2, h3⟩ := first_walk (t := .manager) h6.walk (Or.inr h7) (by decide) (Nat.le_refl _)
  rw [h1.unique h2]
  unfold Asset.manager
  rw [← h3, Option.map_map]
  rfl

theorem Spec.Stores.holder (h : Stores p L k A) :
    hDelegateValue (L k).data = A.holderDelegate := by
  rw [hDelegateValue_eq]
  unfold Asset.holderDelegate Spec.holderDelegate
  rw [h.2.2.1]
  rfl

theorem Spec.Stores.delegated (h : Stores p L k A) {s : Key} {r : Role}
    (hd : IsDelegate (L k).data s r) : A.Delegated s r := by
  obtain ⟨m, x, h1, h2, h3, h4⟩ := hd
  rw [h.hasManager h1, ← hDelegateValue_eq, h.holder] at h2
  exact ⟨x, h2, h3, h4⟩

theorem Spec.Stores.mayLock (h : Stores p L k A) {s : Key}
    (hl : lockAuthority (L k).data s = .ok ()) : A.MayLock s := by
  unfold lockAuthority at hl
  inv at hl
  obtain ⟨m, hm, hl⟩ := hl
  have hm' := h.manager hm
  subst hm'
  have hh := h.holder
  rw [hh] at hl
  unfold Asset.holderDelegate at hl hh
  unfold Asset.MayLock Asset.Delegated
  cases hx : (if A.delegate = Key.default then none else some ⟨A.delegate, A.roles⟩ :
    Option Delegate) with
  | some x =>
    rw [hx] at hl
    simp only at hl
    left
    have := (assertDelegate_two _ _ _ _).mp hl
    unfold Asset.holderDelegate
    rw [hx]; exact this
  | none =>
    rw [hx] at hl
    simp only at hl
    split at hl
    · left
      obtain ⟨x, h1, h2, h3⟩ := (assertDelegate_one _ _ _).mp hl
      exact ⟨x, by rw [h1]; rfl, h2, h3⟩
    · rename_i ho
      right
      refine ⟨?_, ?_⟩
      · by_contra hne
        rw [if_neg hne] at hx; cases hx
      · have := not_not.mp ho
        rw [h.2.2.1]; exact this.symm

/-- A change of header fields. -/
theorem Spec.Stores.set (h : Stores p L k A) {d : Bytes} {v : AssetView}
    (hl : d.length = (L k).data.length) (hv : view d = v) (hd : v.disc = 1)
    (hx : v.extensions = (view (L k).data).extensions) :
    Stores p (L.setData k d) k (Asset.of v A.exts) := by
  refine h.header (by rw [Ledger.setData_same]) (by rw [Ledger.setData_same]; exact hl)
    (by rw [Ledger.setData_same]; exact hv) hd hx

end

/-! ## Group sizes and creators -/

theorem setsFlags_creators (c : Key) (v : UInt8) (cs : List Creator) :
    SetsFlags c v (creatorsBytes cs) (creatorsBytes (cs.map fun x =>
      if x.address = c then { x with verified := v } else x)) := by
  induction cs with
  | nil => exact ⟨rfl, rfl, fun i hi => absurd hi (by simp [creatorsBytes])⟩
  | cons x xs ih =>
    obtain ⟨i0, i1, i2⟩ := ih
    have e1 : ∀ (x : Creator) (xs : List Creator), creatorsBytes (x :: xs) =
        creatorBytes x ++ creatorsBytes xs := fun _ _ => rfl
    rw [List.map_cons, e1, e1]
    have hs : ∀ (y : Creator) (ys : Bytes) (o n : Nat),
        slice (creatorBytes y ++ ys) (o + 34) n = slice ys o n := by
      intro y ys o n
      unfold slice
      rw [List.drop_append, length_creatorBytes, List.drop_eq_nil_of_le (by
        rw [length_creatorBytes]; omega)]
      simp
    have hb : ∀ (y : Creator) (ys : Bytes) (o : Nat),
        byteAt (creatorBytes y ++ ys) (o + 34) = byteAt ys o := by
      intro y ys o
      unfold byteAt
      rw [List.getD_eq_getElem?_getD, List.getD_eq_getElem?_getD,
        List.getElem?_append_right (by rw [length_creatorBytes]; omega), length_creatorBytes]
      simp
    have h0 : ∀ (y : Creator) (ys : Bytes),
        slice (creatorBytes y ++ ys) 0 32 = y.address.1 := by
      intro y ys
      unfold slice creatorBytes
      simp [y.address.2]
    have h1 : ∀ (y : Creator) (ys : Bytes),
        byteAt (creatorBytes y ++ ys) 32 = y.verified := by
      intro y ys
      unfold byteAt creatorBytes
      simp [List.getD_eq_getElem?_getD, y.address.2]
    have h2 : ∀ (y : Creator) (ys : Bytes),
        byteAt (creatorBytes y ++ ys) 33 = y.share := by
      intro y ys
      unfold byteAt creatorBytes
      rw [List.getD_eq_getElem?_getD, List.append_assoc,
        List.getElem?_append_right (by rw [y.address.2]; omega), y.address.2]
      rfl
    refine ⟨by rw [List.length_append, length_creatorBytes]; omega,
      by simp only [List.length_append, i1, length_creatorBytes], fun i hi => ?_⟩
    cases i with
    | zero =>
      simp only [Nat.zero_mul, Nat.zero_add]
      rw [h0, h0, h1, h1, h2, h2]
      by_cases hx : x.address = c
      · rw [if_pos hx, if_pos (by rw [hx])]; exact ⟨rfl, rfl, rfl⟩
      · rw [if_neg hx, if_neg (fun h => hx (Subtype.ext h))]; exact ⟨rfl, rfl, rfl⟩
    | succ i =>
      have e : (i + 1) * 34 = i * 34 + 34 := by omega
      rw [List.length_append, length_creatorBytes] at hi
      have := i2 i (by omega)
      rw [e, show i * 34 + 34 + 33 = i * 34 + 33 + 34 by omega,
        show i * 34 + 34 + 32 = i * 34 + 32 + 34 by omega, hs, hs, hb, hb, hb, hb]
      exact this

end Verif
