import Verif.Lemmas.UpdateLayout
import Verif.Lemmas.Hooks
import Verif.Lemmas.Inv
import Verif.Spec.Machine

/-!
# Accounts that store an asset
-/

namespace Verif

open Verif.Spec

theorem Spec.CleanExts.congr_drop {d d' : Bytes} {es : List Extn} (h : CleanExts d es)
    (hl : 168 ≤ d.length) (hl' : 168 ≤ d'.length)
    (he : d'.drop 168 = d.drop 168) : CleanExts d' es := by
  obtain ⟨e, h1, h2⟩ := h
  have hle := h1.walk.le
  have hlen : d'.length = d.length := by
    have := congrArg List.length he
    simp only [List.length_drop] at this
    omega
  have hget : ∀ i, 168 ≤ i → d'[i]? = d[i]? := by
    intro i hi
    have := congrArg (fun l => l[i - 168]?) he
    simp only [List.getElem?_drop] at this
    rwa [show 168 + (i - 168) = i by omega] at this
  refine ⟨e, h1.congr (by omega) (fun i hi _ => hget i hi), ?_⟩
  rw [slice_congr (d := d) (b := e) (fun i hi => hget _ (by omega))]
  exact h2

theorem view_prefix {d d' : Bytes} (h : ∀ i, i < 168 → d'[i]? = d[i]?) :
    view d' = { view d with extensions := d'.drop 168 } := by
  have hb : ∀ i, i < 168 → byteAt d' i = byteAt d i := fun i hi => by
    unfold byteAt
    rw [List.getD_eq_getElem?_getD, List.getD_eq_getElem?_getD, h i hi]
  have hs : ∀ o n, o + n ≤ 168 → slice d' o n = slice d o n := fun o n ho =>
    slice_congr fun i hi => h _ (by omega)
  have hk : ∀ o, o + 32 ≤ 168 → keyAt d' o = keyAt d o := fun o ho => by
    unfold keyAt; rw [hs o 32 ho]
  unfold view
  simp only [AssetView.mk.injEq]
  exact ⟨hb 0 (by omega), hb 1 (by omega), hb 2 (by omega), hb 3 (by omega), hk 4 (by omega),
    hk 36 (by omega), hk 68 (by omega), hk 100 (by omega), hb 132 (by omega), hs 133 35 (by omega),
    trivial⟩

theorem storedName_eq (n : Bytes) : storedName n = podStr35 n := by
  unfold storedName podStr35 zeros
  rw [List.take_append]
  congr 1
  rw [List.take_replicate, Nat.min_eq_left (by omega)]

section
variable {p : Key} {L L' : Ledger} {k : Key} {A : Asset}

/-- Only the header changed. -/
theorem Spec.Stores.header (h : Stores p L k A) (ho : (L' k).owner = (L k).owner)
    (hl : (L' k).data.length = (L k).data.length) {v : AssetView} (hv : view (L' k).data = v)
    (hd : v.disc = 1) (hx : v.extensions = (view (L k).data).extensions) :
    Stores p L' k (Asset.of v A.exts) := by
  obtain ⟨⟨h1, h2, h3⟩, h4, h5, h6⟩ := h
  subst hv
  refine ⟨⟨ho.trans h1, by omega, hd⟩, by omega, rfl, ?_⟩
  exact h6.congr_drop h2 (by omega) hx

/-- Only the extensions changed. -/
theorem Spec.Stores.exts (h : Stores p L k A) (ho : (L' k).owner = (L k).owner)
    (hm : (L' k).data.length ≤ 10485760) (hp : ∀ i, i < 168 → (L' k).data[i]? = (L k).data[i]?)
    {es : List Extn} (hes : CleanExts (L' k).data es) : Stores p L' k { A with exts := es } := by
  obtain ⟨⟨h1, h2, h3⟩, h4, h5, h6⟩ := h
  have hv := view_prefix hp
  have hle : 168 ≤ (L' k).data.length := by
    obtain ⟨e, g1, _⟩ := hes
    have := g1.walk.le
    omega
  unfold assetAt at h3 h5
  refine ⟨⟨ho.trans h1, hle, ?_⟩, hm, ?_, hes⟩
  · unfold assetAt; rw [hv]; exact h3
  · unfold assetAt
    rw [hv, h5]
    rfl

theorem Spec.Stores.congr (h : Stores p L k A) (ho : (L' k).owner = (L k).owner)
    (hd : (L' k).data = (L k).data) : Stores p L' k A := by
  obtain ⟨⟨h1, h2, h3⟩, h4, h5, h6⟩ := h
  unfold assetAt at h3 h5
  refine ⟨⟨ho.trans h1, by rwa [hd], by unfold assetAt; rwa [hd]⟩, by rwa [hd], ?_, by rwa [hd]⟩
  unfold assetAt; rw [hd]; exact h5

/-- The asset in an account is determined by the account. -/
theorem Spec.Stores.unique {B : Asset} (h : Stores p L k A) (h' : Stores p L k B) : A = B := by
  obtain ⟨_, _, h5, h6⟩ := h
  obtain ⟨_, _, h5', h6'⟩ := h'
  have := h6.hasExts.unique h6'.hasExts
  rw [h5, h5', this]

end

theorem view_updateHeader {d : Bytes} (hd : 168 ≤ d.length) (x : UpdateInput) :
    view (updateHeader d x) = { view d with
      name := match x.name with | some n => storedName n | none => (view d).name,
      mutableByte := match x.isMutable with
        | some m => if m then 1 else 0 | none => (view d).mutableByte } := by
  unfold updateHeader
  cases hn : x.name with
  | none =>
    cases hm : x.isMutable with
    | none => rfl
    | some m => simp only; rw [view_setMutable hd]
  | some n =>
    cases hm : x.isMutable with
    | none => simp only; rw [view_setName hd, storedName_eq]
    | some m =>
      simp only
      rw [view_setMutable (by rw [length_setName hd]; exact hd), view_setName hd, storedName_eq]

/-! ## Validated data -/

theorem SameButBooks.refl (t : ExtType) (p : Bytes) : SameButBooks t p p :=
  ⟨rfl, fun _ h => absurd rfl h⟩

theorem books_creators (f : Creator → UInt8) (cs : List Creator) :
    SameButBooks .creators (creatorsBytes cs)
      (creatorsBytes (cs.map fun c => { c with verified := f c })) := by
  induction cs with
  | nil => exact SameButBooks.refl _ _
  | cons c cs ih =>
    obtain ⟨h1, h2⟩ := ih
    have e1 : ∀ (x : Creator) (xs : List Creator), creatorsBytes (x :: xs) =
        creatorBytes x ++ creatorsBytes xs := fun _ _ => rfl
    have hl : ∀ x : Creator, (creatorBytes x).length = 34 := fun x => by
      unfold creatorBytes; simp [x.address.2]
    rw [List.map_cons, e1, e1]
    refine ⟨by simp only [List.length_append, hl, h1], fun i hi => ?_⟩
    left
    refine ⟨rfl, ?_⟩
    by_cases h34 : i < 34
    · rw [List.getElem?_append_left (by rw [hl]; exact h34),
        List.getElem?_append_left (by rw [hl]; exact h34)] at hi
      unfold creatorBytes at hi
      by_cases h32 : i < 32
      · rw [List.getElem?_append_left (by rw [c.address.2]; exact h32),
          List.getElem?_append_left (by rw [c.address.2]; exact h32)] at hi
        exact absurd rfl hi
      · by_cases h33 : i = 33
        · subst h33
          rw [List.getElem?_append_right (by rw [c.address.2]; omega),
            List.getElem?_append_right (by rw [c.address.2]; omega), c.address.2] at hi
          exact absurd rfl hi
        · omega
    · rw [List.getElem?_append_right (by rw [hl]; omega),
        List.getElem?_append_right (by rw [hl]; omega), hl, hl] at hi
      rcases h2 (i - 34) hi with ⟨_, h⟩ | ⟨h, _⟩
      · omega
      · cases h

theorem books_setGroupSize {p : Bytes} (n : Nat) (h : 8 ≤ p.length) :
    SameButBooks .grouping p (setGroupSize p n) := by
  have hl : 0 + (toLE 8 n).length ≤ p.length := by rw [length_toLE]; omega
  refine ⟨length_splice hl, fun i hi => Or.inr ⟨rfl, ?_⟩⟩
  by_cases h8 : i < 8
  · exact h8
  · exact absurd (getElem?_splice_outside hl (Or.inr (by rw [length_toLE]; omega))) hi

theorem onCreate_books {t : ExtType} {b v : Bytes} {au : Option Key}
    (h : onCreate t b au = .ok v) : SameButBooks t b v := by
  by_cases ht : t = .creators
  · subst ht
    obtain ⟨cs, rfl, rfl, _⟩ := onCreate_creators h
    exact books_creators _ _
  · rw [onCreate_other ht h]; exact SameButBooks.refl _ _

theorem onUpdate_books {t : ExtType} {old b v : Bytes} {au : Option Key}
    (h : onUpdate t old b au = .ok v) : SameButBooks t b v := by
  by_cases ht : t = .creators
  · subst ht
    obtain ⟨os, cs, _, rfl, rfl, _⟩ := onUpdate_creators h
    exact books_creators _ _
  · by_cases hg : t = .grouping
    · subst hg
      obtain ⟨o, n, _, hn, rfl, _⟩ := onUpdate_grouping h
      exact books_setGroupSize _ (by have := (readGrouping_ok hn).1; omega)
    · rw [onUpdate_other ht hg h]; exact SameButBooks.refl _ _

theorem updateValidate_books {t : ExtType} {b v : Bytes} {cur : Option Bytes} {au : Key}
    (h : updateValidate t b cur au = .ok v) : SameButBooks t b v := by
  unfold updateValidate at h
  cases cur with
  | some old => exact onUpdate_books (mapLife_ok.mp h)
  | none =>
    cases t <;> first | cases h; done | exact onCreate_books (mapLife_ok.mp h)

/-! ## Update -/

section
variable {E : Env} {L L' : Ledger} {a au : Key} {buf payer sys : Option Key} {x : UpdateInput}
  {A : Asset}

theorem stores_updateHeader {p : Key} (h : Stores p L a A) (x : UpdateInput) :
    Stores p (L.setData a (updateHeader (L a).data x)) a (A.retitled x) := by
  have h' := h
  obtain ⟨⟨h1, h2, h3⟩, h4, h5, h6⟩ := h'
  have hv := view_updateHeader h2 x
  have := h.header (L' := L.setData a (updateHeader (L a).data x))
    (v := view (updateHeader (L a).data x)) (by rw [Ledger.setData_same])
    (by rw [Ledger.setData_same]; exact length_updateHeader x h2)
    (by rw [Ledger.setData_same]) (by rw [hv]; exact h3) (by rw [hv])
  rw [hv] at this
  unfold Asset.retitled
  rw [h5]
  exact this

/-- The extension part of an inline update. -/
theorem updateArgs_stores {e : ExtInput} (hs : Stores E.program L a A) (he : e.ty ≠ .none)
    (hmax : (L' a).data.length ≤ maxDataLen)
    (h : updateArgs E L a au payer sys e = .ok L') :
    ∃ pl, Stores E.program L' a { A with exts := setExt e.ty pl A.exts } ∧
      pl.length = e.length.toNat ∧
      match e.data with
      | some data => updateValidate e.ty data (lookup e.ty A.exts) au = .ok pl
      | none => pl = [] := by
  obtain ⟨⟨h1, h2, h3⟩, h4, h5, h6⟩ := id hs
  unfold updateArgs at h
  inv at h
  obtain ⟨⟨off, cur⟩, hf, pl, hpl, hg1, hg2, hfin⟩ := h
  obtain ⟨g1, g2⟩ := updateFinish_packed h6 he hf hfin h4 hmax
  refine ⟨pl, hs.exts (updateFinish_eff hfin).2 hmax g2 g1, by omega, ?_⟩
  unfold argsPayload at hpl
  cases hd : e.data with
  | none => rw [hd] at hpl; cases hpl; rfl
  | some data =>
    rw [hd] at hpl
    simp only at hpl ⊢
    inv at hpl
    obtain ⟨old, hold, hv⟩ := hpl
    obtain ⟨en, k1, k2⟩ := h6
    rcases updateFind_packed k1 (Or.inr k2) he hf with ⟨rfl, _, hl, _⟩ |
      ⟨pre, p, post, _, _, hl, _, k5, rfl⟩
    · cases hold; rw [hl]; exact hv
    · unfold currentPayload at hold
      simp only at hold
      split at hold
      · cases hold
      · cases hold
        rw [hl]
        have := (k5.walk.head).2.2.2.2.2.2.1
        rw [show extLen = 16 from rfl, this] at hv
        exact hv

/-- The extension part of an update from a buffer. -/
theorem updateBuffer_stores {b : Key} (hs : Stores E.program L a A)
    (hmax : (L' a).data.length ≤ maxDataLen)
    (h : updateBuffer E L a au b payer sys = .ok L') :
    ∃ hd off t v, firstExtension (L b).data = some (hd, off) ∧ ExtType.ofU32 hd.ty = some t ∧
      184 + hd.len ≤ (L b).data.length ∧
      (t ≠ .none →
        updateValidate t (slice (L b).data 168 hd.len) (lookup t A.exts) au = .ok v ∧
        Stores E.program L' a { A with
          exts := setExt t (slice (splice (L b).data 168 v) 184 hd.len) A.exts }) := by
  obtain ⟨⟨h1, h2, h3⟩, h4, h5, h6⟩ := id hs
  unfold updateBuffer at h
  inv at h
  obtain ⟨_, hne, hbl, _, h⟩ := h
  cases hfe : firstExtension (L b).data with
  | none => rw [hfe] at h; cases h
  | some q =>
    obtain ⟨hd, off⟩ := q
    rw [hfe] at h
    simp only at h
    cases ht : ExtType.ofU32 hd.ty with
    | none => rw [ht] at h; cases h
    | some t =>
      rw [ht] at h
      simp only at h
      inv at h
      obtain ⟨⟨o, cur⟩, hf, _, hfit, old, hold, v, hv, hroom, hfin⟩ := h
      have hroom' : 184 + hd.len ≤ (L b).data.length := by
        have e1 : assetLen = 168 := rfl
        have e2 : extLen = 16 := rfl
        have hvl := (updateValidate_books hv).1
        rw [length_slice (by omega)] at hvl
        rw [length_splice (by omega)] at hroom
        omega
      refine ⟨hd, off, t, v, rfl, ht, hroom', fun he => ?_⟩
      have hs1 : Stores E.program (L.setData b (splice (L b).data assetLen v)) a A :=
        hs.congr (by rw [Ledger.setData_other _ _ (Ne.symm hne)])
          (by rw [Ledger.setData_other _ _ (Ne.symm hne)])
      have hf1 : updateFind t ((L.setData b (splice (L b).data assetLen v)) a).data
          (((L.setData b (splice (L b).data assetLen v)) a).data.length + 1) assetLen
          = .ok (o, cur) := by
        rw [Ledger.setData_other _ _ (Ne.symm hne)]; exact hf
      obtain ⟨g1, g2⟩ := updateFinish_packed hs1.2.2.2 he hf1 hfin hs1.2.1 hmax
      refine ⟨?_, hs1.exts (updateFinish_eff hfin).2 hmax g2 g1⟩
      obtain ⟨en, k1, k2⟩ := h6
      rcases updateFind_packed k1 (Or.inr k2) he hf with ⟨rfl, _, hl, _⟩ |
        ⟨pre, p, post, _, _, hl, _, k5, rfl⟩
      · cases hold; rw [hl]; exact hv
      · unfold currentPayload at hold
        simp only at hold
        split at hold
        · cases hold
        · cases hold
          rw [hl]
          have := (k5.walk.head).2.2.2.2.2.2.1
          rw [show extLen = 16 from rfl, this] at hv
          exact hv

end

/-! ## Data sizes -/

theorem execute_maxLen {E : Env} {L L' : Ledger} {accts : List Key} {i : Instr} {k : Key}
    (h : execute E L accts i = .ok L') (hk : k ∈ accts)
    (hm : (L k).data.length ≤ maxDataLen) : (L' k).data.length ≤ maxDataLen := by
  have := (execute_ok h).2.2.2 k hk
  unfold changeAllowed at this
  simp only [Bool.or_eq_true, Bool.and_eq_true, decide_eq_true_iff] at this
  rcases this with h | ⟨⟨_, h⟩, _⟩
  · rw [h]; exact hm
  · exact h

end Verif
