import Verif.Spec.Layout
import Verif.Lemmas.Except
import Verif.Lemmas.Bytes
import Verif.Lemmas.Lookup

/-!
# Walks over well-formed extension areas
-/

namespace Verif

open Verif.Spec

theorem ofU32_toU32 (t : ExtType) : ExtType.ofU32 t.toU32 = some t := by cases t <;> rfl

theorem toU32_ofU32 {n : Nat} {t : ExtType} (h : ExtType.ofU32 n = some t) : n = t.toU32 := by
  unfold ExtType.ofU32 at h
  split at h <;> first | (cases h; rfl) | (cases h; done)

theorem toU32_inj {s t : ExtType} (h : s.toU32 = t.toU32) : s = t := by
  have := ofU32_toU32 s
  rw [h, ofU32_toU32] at this
  exact (Option.some.inj this).symm

theorem toU32_ne_zero {t : ExtType} (h : t ≠ .none) : t.toU32 ≠ 0 := by
  cases t <;> simp [ExtType.toU32] at *

variable {d d' : Bytes} {off e : Nat} {es : List Extn} {t : ExtType}

theorem Spec.Walk.le (h : Walk d off es e) : off ≤ e ∧ e ≤ d.length := by
  induction h with
  | nil h => exact ⟨Nat.le_refl _, h⟩
  | cons _ _ _ _ hb _ _ ih => omega

theorem Spec.Walk.length_le (h : Walk d off es e) : off + 16 * es.length ≤ e := by
  induction h with
  | nil h => simp
  | cons _ _ _ _ hb _ _ ih => simp only [List.length_cons]; omega

theorem Spec.Walk.types (h : Walk d off es e) : ∀ x ∈ es, x.1 ≠ ExtType.none := by
  induction h with
  | nil => simp
  | cons ht _ _ _ _ _ _ ih =>
    intro x hx
    rcases List.mem_cons.mp hx with rfl | hx
    · exact ht
    · exact ih x hx

theorem walk_append {xs ys : List Extn} :
    Walk d off (xs ++ ys) e ↔ ∃ m, Walk d off xs m ∧ Walk d m ys e := by
  constructor
  · intro h
    induction xs generalizing off with
    | nil => exact ⟨off, Walk.nil (by have := h.le; omega), h⟩
    | cons x xs ih =>
      cases h with
      | cons ht h0 h1 h2 hb hp hr =>
        obtain ⟨m, hm1, hm2⟩ := ih hr
        exact ⟨m, Walk.cons ht h0 h1 h2 hb hp hm1, hm2⟩
  · rintro ⟨m, h1, h2⟩
    induction h1 with
    | nil => exact h2
    | cons ht h0 h1 hbd hb hp _ ih => exact Walk.cons ht h0 h1 hbd hb hp (ih h2)

theorem le_roundUp8 (n : Nat) : n ≤ roundUp8 n := by unfold roundUp8; omega

theorem Spec.Packed.walk (h : Packed d off es e) : Walk d off es e := by
  induction h with
  | nil h => exact Walk.nil h
  | cons ht h0 h1 h2 hp _ ih => exact Walk.cons ht h0 h1 h2 (le_roundUp8 _) hp ih

theorem packed_append {xs ys : List Extn} :
    Packed d off (xs ++ ys) e ↔ ∃ m, Packed d off xs m ∧ Packed d m ys e := by
  constructor
  · intro h
    induction xs generalizing off with
    | nil => exact ⟨off, Packed.nil (by have := h.walk.le; omega), h⟩
    | cons x xs ih =>
      cases h with
      | cons ht h0 h1 h2 hp hr =>
        obtain ⟨m, hm1, hm2⟩ := ih hr
        exact ⟨m, Packed.cons ht h0 h1 h2 hp hm1, hm2⟩
  · rintro ⟨m, h1, h2⟩
    induction h1 with
    | nil => exact h2
    | cons ht h0 h1 hbd hp _ ih => exact Packed.cons ht h0 h1 hbd hp (ih h2)

theorem slice_congr {a b n : Nat} (h : ∀ i, i < n → d'[a + i]? = d[b + i]?) :
    slice d' a n = slice d b n := by
  apply List.ext_getElem?
  intro i
  rw [getElem?_slice, getElem?_slice]
  split
  · rename_i hi; exact h i hi
  · rfl

/-- A walk only depends on the bytes it goes through. -/
theorem Spec.Walk.congr (h : Walk d off es e) (hl : e ≤ d'.length)
    (hd : ∀ i, off ≤ i → i < e → d'[i]? = d[i]?) : Walk d' off es e := by
  induction h with
  | nil h => exact Walk.nil hl
  | @cons off bnd e t p rest ht h0 h1 h2 hb hp hr ih =>
    have hle := hr.le
    have key : ∀ j n, j + n ≤ 16 + p.length → slice d' (off + j) n = slice d (off + j) n := by
      intro j n hj
      exact slice_congr fun i hi => hd _ (by omega) (by omega)
    refine Walk.cons ht ?_ ?_ ?_ hb ?_ (ih hl fun i h1 h2 => hd i (by omega) h2)
    · have := key 0 4 (by omega); simp only [Nat.add_zero] at this; rw [this]; exact h0
    · rw [key 4 4 (by omega)]; exact h1
    · rw [key 8 4 (by omega)]; exact h2
    · rw [key 16 _ (by omega)]; exact hp

theorem Spec.Packed.congr (h : Packed d off es e) (hl : e ≤ d'.length)
    (hd : ∀ i, off ≤ i → i < e → d'[i]? = d[i]?) : Packed d' off es e := by
  induction h with
  | nil h => exact Packed.nil hl
  | @cons off e t p rest ht h0 h1 h2 hp hr ih =>
    have hle := hr.walk.le
    have hru := le_roundUp8 (off + 16 + p.length)
    have key : ∀ j n, j + n ≤ 16 + p.length → slice d' (off + j) n = slice d (off + j) n := by
      intro j n hj
      exact slice_congr fun i hi => hd _ (by omega) (by omega)
    refine Packed.cons ht ?_ ?_ ?_ ?_ (ih hl fun i h1 h2 => hd i (by omega) h2)
    · have := key 0 4 (by omega); simp only [Nat.add_zero] at this; rw [this]; exact h0
    · rw [key 4 4 (by omega)]; exact h1
    · rw [key 8 4 (by omega)]; exact h2
    · rw [key 16 _ (by omega)]; exact hp

/-- The extensions stored are determined by the data. -/
theorem Spec.Walk.unique {es' : List Extn} {e' : Nat} (h : Walk d off es e) (he : Ends d e)
    (h' : Walk d off es' e') (he' : Ends d e') : es = es' ∧ e = e' := by
  induction h generalizing es' e' with
  | nil hl =>
    cases h' with
    | nil => exact ⟨rfl, rfl⟩
    | cons ht h0 h1 h2 hb hp hr =>
      have := hr.le
      rcases he with he | he
      · omega
      · rw [h0] at he; exact absurd he (toU32_ne_zero ht)
  | cons ht h0 h1 h2 hb hp hr ih =>
    cases h' with
    | nil =>
      have := hr.le
      rcases he' with he' | he'
      · omega
      · rw [h0] at he'; exact absurd he' (toU32_ne_zero ht)
    | cons ht' h0' h1' h2' hb' hp' hr' =>
      rw [h2] at h2'; subst h2'
      obtain ⟨rfl, rfl⟩ := ih he hr' he'
      rw [h0] at h0'
      rw [h1] at h1'
      obtain rfl := toU32_inj h0'
      rw [h1', hp'] at hp
      subst hp
      exact ⟨rfl, rfl⟩

theorem Spec.HasExts.unique {es' : List Extn} (h : HasExts d es) (h' : HasExts d es') : es = es' := by
  obtain ⟨e, h1, h2⟩ := h
  obtain ⟨e', h1', h2'⟩ := h'
  exact (h1.unique h2 h1' h2').1

theorem Spec.CleanExts.hasExts (h : CleanExts d es) : HasExts d es := by
  obtain ⟨e, h1, h2⟩ := h
  exact ⟨e, h1.walk, Or.inr h2⟩

/-! ## One step of a walk as the programs see it -/

theorem Spec.Walk.head {p : Bytes} {rest : List Extn} (h : Walk d off ((t, p) :: rest) e) :
    off + extLen ≤ d.length ∧ ExtType.ofU32 (hdrAt d off).ty = some t ∧ t ≠ .none ∧
      (hdrAt d off).len = p.length ∧ off + 16 + p.length ≤ (hdrAt d off).bnd ∧
      (hdrAt d off).bnd ≤ d.length ∧
      slice d (off + 16) p.length = p ∧ Walk d (hdrAt d off).bnd rest e := by
  cases h with
  | cons ht h0 h1 h2 hb hp hr =>
    have hle := hr.le
    have e16 : extLen = 16 := rfl
    have hty : (hdrAt d off).ty = t.toU32 := h0
    have hlen : (hdrAt d off).len = p.length := h1
    have hbnd : (hdrAt d off).bnd = _ := h2
    rw [hty, hlen, hbnd, ofU32_toU32]
    exact ⟨by omega, rfl, ht, rfl, hb, by omega, hp, hr⟩

theorem Spec.Ends.cases (h : Ends d e) : ¬ e + extLen ≤ d.length ∨
    (e + extLen ≤ d.length ∧ ExtType.ofU32 (hdrAt d e).ty = some .none) := by
  have e16 : extLen = 16 := rfl
  by_cases hl : e + extLen ≤ d.length
  · right
    rcases h with h | h
    · omega
    · refine ⟨hl, ?_⟩
      have : (hdrAt d e).ty = 0 := h
      rw [this]; rfl
  · exact Or.inl hl

/-! ## Lookups -/

theorem findFrom_skip {fuel m : Nat} (h : Walk d off es m) (ht : ∀ x ∈ es, x.1 ≠ t) :
    findFrom t d (es.length + fuel) off = findFrom t d fuel m := by
  induction es generalizing off with
  | nil => cases h; simp
  | cons x xs ih =>
    obtain ⟨t', p⟩ := x
    obtain ⟨h1, h2, h3, _, _, _, _, h4⟩ := h.head
    have hne : t' ≠ t := ht (t', p) (by simp)
    have : (List.length ((t', p) :: xs)) + fuel = (xs.length + fuel) + 1 := by
      simp only [List.length_cons]; omega
    rw [this, findFrom, if_pos h1]
    simp only
    rw [h2, if_neg (by simpa using hne), if_neg (by simpa using h3)]
    exact ih h4 fun y hy => ht y (by simp [hy])

theorem updateFind_skip {fuel m : Nat} (h : Walk d off es m) (ht : ∀ x ∈ es, x.1 ≠ t) :
    updateFind t d (es.length + fuel) off = updateFind t d fuel m := by
  induction es generalizing off with
  | nil => cases h; simp
  | cons x xs ih =>
    obtain ⟨t', p⟩ := x
    obtain ⟨h1, h2, h3, _, _, _, _, h4⟩ := h.head
    have e16 : extLen = 16 := rfl
    have hne : t' ≠ t := ht (t', p) (by simp)
    have : (List.length ((t', p) :: xs)) + fuel = (xs.length + fuel) + 1 := by
      simp only [List.length_cons]; omega
    rw [this, updateFind, if_pos (by omega), if_neg (by omega)]
    simp only
    rw [h2, if_neg (by simpa using hne), if_neg (by simpa using h3)]
    exact ih h4 fun y hy => ht y (by simp [hy])

theorem removeFind_skip {fuel m : Nat} (h : Walk d off es m) (ht : ∀ x ∈ es, x.1 ≠ t)
    (hm : m < d.length) : removeFind t d (es.length + fuel) off = removeFind t d fuel m := by
  induction es generalizing off with
  | nil => cases h; simp
  | cons x xs ih =>
    obtain ⟨t', p⟩ := x
    obtain ⟨h1, h2, h3, _, h5, _, _, h4⟩ := h.head
    have e16 : extLen = 16 := rfl
    have hle := h4.le
    have hne : t' ≠ t := ht (t', p) (by simp)
    have : (List.length ((t', p) :: xs)) + fuel = (xs.length + fuel) + 1 := by
      simp only [List.length_cons]; omega
    rw [this, removeFind, if_pos (by omega)]
    simp only
    rw [h2, if_neg (by simpa using hne), if_neg (by simpa using h3)]
    exact ih h4 fun y hy => ht y (by simp [hy])

theorem slice_drop (d : Bytes) (k o n : Nat) : slice (d.drop k) o n = slice d (k + o) n := by
  unfold slice; rw [List.drop_drop]

theorem hdrAt_drop {d : Bytes} {o : Nat} (ho : 168 ≤ o) :
    hdrAt (d.drop 168) (o - 168) = hdrAt d o := by
  unfold hdrAt u32At
  have e0 : 168 + (o - 168) = o := by omega
  have e1 : 168 + (o - 168 + 4) = o + 4 := by omega
  have e2 : 168 + (o - 168 + 8) = o + 8 := by omega
  simp only [slice_drop, e0, e1, e2]

theorem extFindFrom_skip {fuel m : Nat} (h : Walk d off es m) (ho : 168 ≤ off)
    (ht : ∀ x ∈ es, x.1 ≠ t) :
    extFindFrom t (d.drop 168) (es.length + fuel) (off - 168) =
      extFindFrom t (d.drop 168) fuel (m - 168) := by
  induction es generalizing off with
  | nil => cases h; simp
  | cons x xs ih =>
    obtain ⟨t', p⟩ := x
    obtain ⟨h1, h2, h3, _, h5, _, _, h4⟩ := h.head
    have e16 : extLen = 16 := rfl
    have e168 : assetLen = 168 := rfl
    have hle := h4.le
    have hh : hdrAt (d.drop 168) (off - 168) = hdrAt d off := hdrAt_drop ho
    have hne : t' ≠ t := ht (t', p) (by simp)
    have : (List.length ((t', p) :: xs)) + fuel = (xs.length + fuel) + 1 := by
      simp only [List.length_cons]; omega
    rw [this, extFindFrom, if_pos (by rw [List.length_drop]; omega)]
    simp only
    rw [hh, h2, if_neg (by simpa using hne), if_neg (by simpa using h3), if_pos (by omega)]
    exact ih h4 (by omega) fun y hy => ht y (by simp [hy])

/-- Either there is no extension of the type, or there is a first one. -/
theorem Spec.Walk.split (h : Walk d off es e) (t : ExtType) :
    (lookup t es = none ∧ ∀ x ∈ es, x.1 ≠ t) ∨
    ∃ pre p post m, es = pre ++ (t, p) :: post ∧ (∀ x ∈ pre, x.1 ≠ t) ∧ lookup t es = some p ∧
      Walk d off pre m ∧ Walk d m ((t, p) :: post) e := by
  induction es generalizing off with
  | nil => left; simp [lookup]
  | cons x xs ih =>
    obtain ⟨t', p⟩ := x
    by_cases htt : t' = t
    · subst htt
      right
      exact ⟨[], p, xs, off, rfl, by simp, by simp [lookup], Walk.nil (by have := h.le; omega), h⟩
    · obtain ⟨m, h1, h2⟩ := walk_append.mp (show Walk d off ([(t', p)] ++ xs) e from h)
      rcases ih h2 with ⟨g1, g2⟩ | ⟨pre, q, post, m', rfl, g2, g3, g4, g5⟩
      · left
        refine ⟨by rw [lookup, if_neg htt]; exact g1, fun x hx => ?_⟩
        rcases List.mem_cons.mp hx with rfl | hx
        · exact htt
        · exact g2 x hx
      · right
        refine ⟨(t', p) :: pre, q, post, m', rfl, fun x hx => ?_, ?_, ?_, g5⟩
        · rcases List.mem_cons.mp hx with rfl | hx
          · exact htt
          · exact g2 x hx
        · rw [lookup, if_neg htt]; exact g3
        · exact walk_append.mpr ⟨m, h1, g4⟩

/-- The same for packed areas. -/
theorem Spec.Packed.split (h : Packed d off es e) (t : ExtType) :
    (lookup t es = none ∧ ∀ x ∈ es, x.1 ≠ t) ∨
    ∃ pre p post m, es = pre ++ (t, p) :: post ∧ (∀ x ∈ pre, x.1 ≠ t) ∧ lookup t es = some p ∧
      Packed d off pre m ∧ Packed d m ((t, p) :: post) e := by
  rcases h.walk.split t with h1 | ⟨pre, p, post, m, rfl, h2, h3, h4, h5⟩
  · exact Or.inl h1
  · obtain ⟨m', g1, g2⟩ := packed_append.mp h
    exact Or.inr ⟨pre, p, post, m', rfl, h2, h3, g1, g2⟩

/-- `Asset::get` returns the data of the first extension of the type. -/
theorem find_walk (h : Walk d 168 es e) (he : Ends d e) (ht : t ≠ .none) :
    (lookup t es = none ∧ (∀ x ∈ es, x.1 ≠ t) ∧ find t d = .ok none) ∨
    ∃ pre p post m, es = pre ++ (t, p) :: post ∧ (∀ x ∈ pre, x.1 ≠ t) ∧ lookup t es = some p ∧
      Walk d 168 pre m ∧ Walk d m ((t, p) :: post) e ∧ find t d = .ok (some m) := by
  have hlen := h.length_le
  have hle := h.le
  rcases h.split t with ⟨h1, h2⟩ | ⟨pre, p, post, m, rfl, h2, h3, h4, h5⟩
  · left
    refine ⟨h1, h2, ?_⟩
    unfold find
    have : d.length + 1 = es.length + ((d.length - es.length) + 1) := by omega
    rw [this, show assetLen = 168 from rfl, findFrom_skip h h2, findFrom]
    rcases he.cases with hc | ⟨hc, hc2⟩
    · rw [if_neg hc]
    · rw [if_pos hc]
      simp only
      rw [hc2, if_neg (by simpa using fun h => ht h.symm), if_pos rfl]
  · right
    refine ⟨pre, p, post, m, rfl, h2, h3, h4, h5, ?_⟩
    unfold find
    have hlen' := h4.length_le
    have hle' := h5.le
    have : d.length + 1 = pre.length + ((d.length - pre.length) + 1) := by omega
    rw [this, show assetLen = 168 from rfl, findFrom_skip h4 h2, findFrom]
    obtain ⟨g1, g2, g3, _⟩ := h5.head
    rw [if_pos g1]
    simp only
    rw [g2, if_pos rfl]

theorem payloadAt_walk {p : Bytes} {rest : List Extn} (h : Walk d off ((t, p) :: rest) e) :
    payloadAt d off = .ok p := by
  obtain ⟨h1, h2, h3, h4, h5, h6, h7, h8⟩ := h.head
  have e16 : extLen = 16 := rfl
  unfold payloadAt
  simp only
  rw [h4, if_pos (by omega), e16, h7]

theorem assetGet_walk (h : HasExts d es) (ht : t ≠ .none) : assetGet t d = .ok (lookup t es) := by
  obtain ⟨e, h, he⟩ := h
  unfold assetGet
  rcases find_walk h he ht with ⟨h1, h2, h3⟩ | ⟨pre, p, post, m, _, _, h3, h4, h5, h6⟩
  · rw [h3, h1]; rfl
  · rw [h6, h3]
    simp only [bind, Except.bind]
    rw [payloadAt_walk h5]; rfl

/-- `Extension::get` on the area after the header agrees. -/
theorem extGet_walk (h : Walk d 168 es e) (he : Ends d e) (ht : t ≠ .none) :
    (lookup t es = none ∧ extGet t (d.drop 168) = .ok none) ∨
    ∃ pre p post m, es = pre ++ (t, p) :: post ∧ (∀ x ∈ pre, x.1 ≠ t) ∧ lookup t es = some p ∧
      Walk d 168 pre m ∧ Walk d m ((t, p) :: post) e ∧
      extGet t (d.drop 168) = .ok (some (m - 168 + 16, p)) := by
  have hlen := h.length_le
  have hle := h.le
  have e16 : extLen = 16 := rfl
  have hh : ∀ o, 168 ≤ o → hdrAt (d.drop 168) (o - 168) = hdrAt d o := fun o ho => hdrAt_drop ho
  rcases h.split t with ⟨h1, h2⟩ | ⟨pre, p, post, m, rfl, h2, h3, h4, h5⟩
  · left
    refine ⟨h1, ?_⟩
    unfold extGet
    have : (d.drop 168).length + 1 = es.length + (((d.drop 168).length - es.length) + 1) := by
      rw [List.length_drop]; omega
    have hs := extFindFrom_skip (fuel := ((d.drop 168).length - es.length) + 1) h
      (by omega) h2
    rw [Nat.sub_self] at hs
    rw [this, hs, extFindFrom]
    rcases he.cases with hc | ⟨hc, hc2⟩
    · rw [if_neg (by rw [List.length_drop]; omega)]; rfl
    · rw [if_pos (by rw [List.length_drop]; omega)]
      simp only
      rw [hh e (by omega), hc2, if_neg (by simpa using fun h => ht h.symm), if_pos rfl]; rfl
  · right
    refine ⟨pre, p, post, m, rfl, h2, h3, h4, h5, ?_⟩
    unfold extGet
    have hlen' := h4.length_le
    have hle' := h5.le
    have hle4 := h4.le
    have : (d.drop 168).length + 1 = pre.length + (((d.drop 168).length - pre.length) + 1) := by
      rw [List.length_drop]; omega
    have hs := extFindFrom_skip (fuel := ((d.drop 168).length - pre.length) + 1) h4
      (by omega) h2
    rw [Nat.sub_self] at hs
    obtain ⟨g1, g2, g3, g4, g5, g6, g7, _⟩ := h5.head
    have hfind : extFindFrom t (d.drop 168) ((d.drop 168).length + 1) 0 = .ok (some (m - 168)) := by
      rw [this, hs, extFindFrom]
      rw [if_pos (by rw [List.length_drop]; omega)]
      simp only
      rw [hh m (by omega), g2, if_pos rfl]
    rw [hfind]
    simp only [bind, Except.bind]
    have hpay : payloadAt (d.drop 168) (m - 168) = .ok p := by
      unfold payloadAt
      simp only
      rw [hh m (by omega), g4, if_pos (by rw [List.length_drop]; omega), e16]
      have e0 : 168 + (m - 168 + 16) = m + 16 := by omega
      rw [slice_drop, e0, g7]
    rw [hpay]; rfl

theorem extensionsFrom_walk {fuel : Nat} (h : Walk d off es e) (he : Ends d e)
    (hf : es.length < fuel) : extensionsFrom d fuel off = .ok (es.map (·.1)) := by
  induction es generalizing off fuel with
  | nil =>
    cases h
    obtain ⟨f, rfl⟩ : ∃ f, fuel = f + 1 := ⟨fuel - 1, by simp at hf; omega⟩
    rw [extensionsFrom]
    rcases he.cases with hc | ⟨hc, hc2⟩
    · rw [if_neg hc]; rfl
    · rw [if_pos hc]; simp only; rw [hc2]; rfl
  | cons x xs ih =>
    obtain ⟨t', p⟩ := x
    obtain ⟨h1, h2, h3, _, _, _, _, h4⟩ := h.head
    obtain ⟨f, rfl⟩ : ∃ f, fuel = f + 1 := ⟨fuel - 1, by simp at hf; omega⟩
    have := ih (fuel := f) h4 (by simp only [List.length_cons] at hf; omega)
    rw [extensionsFrom, if_pos h1]
    simp only
    rw [h2, this]
    cases t' <;> first | exact absurd rfl h3 | rfl

theorem getExtensions_walk (h : HasExts d es) : getExtensions d = .ok (es.map (·.1)) := by
  obtain ⟨e, h, he⟩ := h
  have := h.length_le
  have := h.le
  exact extensionsFrom_walk h he (by omega)

/-- `Asset::last_extension` finds the header of the last extension. -/
theorem lastFrom_walk {fuel : Nat} (h : Walk d off es e) (he : Ends d e)
    (hf : es.length < fuel) (last : Option (Hdr × Nat)) :
    lastFrom d fuel off last = .ok last ∧ es = [] ∨
    ∃ pre t p m, es = pre ++ [(t, p)] ∧ Walk d off pre m ∧ Walk d m [(t, p)] e ∧
      lastFrom d fuel off last = .ok (some (⟨t.toU32, p.length, e⟩, m + 16)) := by
  induction es generalizing off fuel last with
  | nil =>
    cases h
    obtain ⟨f, rfl⟩ : ∃ f, fuel = f + 1 := ⟨fuel - 1, by simp at hf; omega⟩
    left
    refine ⟨?_, rfl⟩
    rw [lastFrom]
    rcases he.cases with hc | ⟨hc, hc2⟩
    · rw [if_neg hc]
    · rw [if_pos hc]; simp only; rw [hc2]
  | cons x xs ih =>
    obtain ⟨t', p⟩ := x
    right
    obtain ⟨h1, h2, h3, hlen, _, _, _, h4⟩ := h.head
    have hty : (hdrAt d off).ty = t'.toU32 := by cases h with | cons ht h0 => exact h0
    obtain ⟨f, rfl⟩ : ∃ f, fuel = f + 1 := ⟨fuel - 1, by simp at hf; omega⟩
    have hstep : lastFrom d (f + 1) off last =
        lastFrom d f (hdrAt d off).bnd (some (hdrAt d off, off + extLen)) := by
      rw [lastFrom, if_pos h1]
      simp only
      rw [h2]
      cases t' <;> first | exact absurd rfl h3 | rfl
    rw [hstep]
    have hw1 : Walk d off [(t', p)] (hdrAt d off).bnd := by
      cases h with
      | cons ht h0 h1 h2 hb hp hr =>
        have : (hdrAt d off).bnd = _ := h2
        rw [this]
        exact Walk.cons ht h0 h1 h2 hb hp (Walk.nil (by have := hr.le; omega))
    rcases ih (fuel := f) h4 (by simp only [List.length_cons] at hf; omega)
        (some (hdrAt d off, off + extLen)) with ⟨g1, rfl⟩ | ⟨pre, t, q, m, rfl, g1, g2, g3⟩
    · refine ⟨[], t', p, off, rfl, Walk.nil (by have := h.le; omega), h, ?_⟩
      rw [g1]
      have he' : (hdrAt d off).bnd = e := by
        generalize (hdrAt d off).bnd = q at h4
        cases h4; rfl
      have : hdrAt d off = ⟨t'.toU32, p.length, e⟩ := by
        rw [← he', ← hty, ← hlen]
      rw [this]; rfl
    · refine ⟨(t', p) :: pre, t, q, m, rfl, ?_, g2, g3⟩
      exact (walk_append (xs := [(t', p)])).mpr ⟨_, hw1, g1⟩

theorem lastExtension_walk (h : Walk d 168 es e) (he : Ends d e) :
    lastExtension d = .ok none ∧ es = [] ∨
    ∃ pre t p m, es = pre ++ [(t, p)] ∧ Walk d 168 pre m ∧ Walk d m [(t, p)] e ∧
      lastExtension d = .ok (some (⟨t.toU32, p.length, e⟩, m + 16)) := by
  have := h.length_le
  have := h.le
  exact lastFrom_walk h he (by omega) none

end Verif
