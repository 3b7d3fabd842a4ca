import Verif.Lemmas.Except
import Verif.Lemmas.Header
import Verif.Lemmas.Hooks

/-!
# What the processors of part two may change besides the data of their asset
-/

namespace Verif

/-- Lamports held by the listed accounts. -/
def total (ks : List Key) (L : Ledger) : Nat := (ks.map fun x => (L x).lamports).sum

theorem total_congr {ks : List Key} {L L' : Ledger} (h : ∀ x ∈ ks, (L' x).lamports = (L x).lamports) :
    total ks L' = total ks L := by
  unfold total
  congr 1
  exact List.map_congr_left h

theorem total_setLamports {ks : List Key} (hn : ks.Nodup) {k : Key} (hk : k ∈ ks) (L : Ledger)
    (n : Nat) : total ks (L.setLamports k n) + (L k).lamports = total ks L + n := by
  induction ks with
  | nil => simp at hk
  | cons a ks ih =>
    rw [List.nodup_cons] at hn
    unfold total at *
    simp only [List.map_cons, List.sum_cons]
    rcases List.mem_cons.mp hk with rfl | hk
    · have := total_congr (ks := ks) (L := L) (L' := L.setLamports k n) (fun x hx => by
        rw [Ledger.setLamports_other]; rintro rfl; exact hn.1 hx)
      unfold total at this
      rw [this, Ledger.setLamports_same]
      simp only
      omega
    · have hne : a ≠ k := by rintro rfl; exact hn.1 hk
      rw [Ledger.setLamports_other _ _ hne]
      have := ih hn.2 hk
      omega

theorem le_total {ks : List Key} {k : Key} (hk : k ∈ ks) (L : Ledger) :
    (L k).lamports ≤ total ks L := by
  unfold total
  induction ks with
  | nil => simp at hk
  | cons a ks ih =>
    simp only [List.map_cons, List.sum_cons]
    rcases List.mem_cons.mp hk with rfl | hk
    · omega
    · have := ih hk
      omega

theorem add_le_total {ks : List Key} (hn : ks.Nodup) {k p : Key} (hk : k ∈ ks) (hp : p ∈ ks)
    (hne : p ≠ k) (L : Ledger) : (L k).lamports + (L p).lamports ≤ total ks L := by
  have h1 := total_setLamports hn hp L 0
  have h2 := le_total hk (L.setLamports p 0)
  rw [Ledger.setLamports_other _ _ (fun h => hne h.symm)] at h2
  omega

/-- Only the account `k` changes besides lamports moving to or from the payer. -/
structure Eff (E : Env) (k : Key) (payer : Option Key) (L L' : Ledger) : Prop where
  data : ∀ x, x ≠ k → (L' x).data = (L x).data ∧ (L' x).owner = (L x).owner
  other : ∀ x, x ≠ k → payer ≠ some x → L' x = L x
  conserve : ∀ ks : List Key, ks.Nodup → k ∈ ks → (∀ p, payer = some p → p ∈ ks) →
    total ks L < two64 → total ks L' = total ks L
  loss : ∀ ks : List Key, ks.Nodup → k ∈ ks → (∀ p, payer = some p → p ∈ ks) →
    total ks L < two64 → ∀ x, x ≠ k → (L' x).lamports < (L x).lamports →
    E.signer x = true ∧ (L x).owner = Key.system

variable {E : Env} {k : Key} {payer sys : Option Key} {L L' L'' : Ledger}

theorem Eff.refl : Eff E k payer L L :=
  ⟨fun _ _ => ⟨rfl, rfl⟩, fun _ _ _ => rfl, fun _ _ _ _ _ => rfl, 
    fun _ _ _ _ _ _ _ h => absurd h (by omega)⟩

theorem Eff.trans (h1 : Eff E k payer L L') (h2 : Eff E k payer L' L'') : Eff E k payer L L'' where
  data x hx := by
    obtain ⟨a, b⟩ := h1.data x hx
    obtain ⟨c, d⟩ := h2.data x hx
    exact ⟨c.trans a, d.trans b⟩
  other x hx hp := (h2.other x hx hp).trans (h1.other x hx hp)
  conserve ks hn hk hp ht := by
    have e := h1.conserve ks hn hk hp ht
    rw [h2.conserve ks hn hk hp (by omega), e]
  loss ks hn hk hp ht x hx hl := by
    by_cases h : (L' x).lamports < (L x).lamports
    · exact h1.loss ks hn hk hp ht x hx h
    · have e := h1.conserve ks hn hk hp ht
      have := h2.loss ks hn hk hp (by omega) x hx (by omega)
      rwa [(h1.data x hx).2] at this

theorem Eff.setData (d : Bytes) : Eff E k payer L (L.setData k d) where
  data x hx := by rw [Ledger.setData_other _ _ hx]; exact ⟨rfl, rfl⟩
  other x hx _ := Ledger.setData_other _ _ hx
  conserve ks _ _ _ _ := total_congr fun x _ => by
    by_cases hx : x = k
    · subst hx; rw [Ledger.setData_same]
    · rw [Ledger.setData_other _ _ hx]
  loss _ _ _ _ _ x hx hl := by rw [Ledger.setData_other _ _ hx] at hl; omega

theorem setLamports_data (x p : Key) (n : Nat) :
    ((L.setLamports p n) x).data = (L x).data ∧ ((L.setLamports p n) x).owner = (L x).owner := by
  by_cases hx : x = p
  · subst hx; rw [Ledger.setLamports_same]; exact ⟨rfl, rfl⟩
  · rw [Ledger.setLamports_other _ _ hx]; exact ⟨rfl, rfl⟩

theorem systemTransfer_eff {p : Key} {n : Nat} (h : systemTransfer E L p k n = .ok L') :
    Eff E k (some p) L L' ∧ (L' k).data = (L k).data ∧ (L' k).owner = (L k).owner ∧
      (E.signer k = true ∨ (L k).owner ≠ Key.system → (L k).owner ≠ Key.system →
        (L k).lamports ≤ (L' k).lamports) := by
  unfold systemTransfer at h
  split at h
  · rename_i hc
    obtain ⟨hs, _, _, ho, _, hle⟩ := hc
    simp only at h
    split at h
    · cases h
      refine ⟨⟨fun x hx => ?_, fun x hx hp => ?_, fun ks hn hk hp ht => ?_, fun ks hn hk hp ht x hx hl => ?_⟩,
        ?_, ?_, fun _ hko => ?_⟩
      · rw [Ledger.setLamports_other _ _ hx]; exact setLamports_data _ _ _
      · rw [Ledger.setLamports_other _ _ hx, Ledger.setLamports_other]
        rintro rfl; exact hp rfl
      · have hpm := hp p rfl
        have h1 := total_setLamports hn hpm L ((L p).lamports - n)
        have h2 := total_setLamports hn hk (L.setLamports p ((L p).lamports - n))
          ((L.setLamports p ((L p).lamports - n) k).lamports + n)
        omega
      · rw [Ledger.setLamports_other _ _ hx] at hl
        by_cases hxp : x = p
        · subst hxp; exact ⟨hs, ho⟩
        · rw [Ledger.setLamports_other _ _ hxp] at hl; omega
      · rw [Ledger.setLamports_same]; exact (setLamports_data _ _ _).1
      · rw [Ledger.setLamports_same]; exact (setLamports_data _ _ _).2
      · rw [Ledger.setLamports_same]
        have hkp : k ≠ p := by rintro rfl; exact hko ho
        rw [Ledger.setLamports_other _ _ hkp]
        simp only; omega
    · cases h
  · cases h

theorem resizeRefund_eff {size : Nat} (h : resizeRefund E L size k payer = .ok L') :
    Eff E k payer L L' ∧ (L' k).data = (L k).data ∧ (L' k).owner = (L k).owner := by
  unfold resizeRefund at h
  simp only at h
  have hdelta : (L k).lamports - (if size = 0 then 0 else E.rent size) ≤ (L k).lamports :=
    Nat.sub_le _ _
  generalize (L k).lamports - (if size = 0 then 0 else E.rent size) = delta at *
  cases payer with
  | none => cases h
  | some p =>
    simp only at h
    cases h
    have e64 : two64 = 18446744073709551616 := rfl
    by_cases hpk : p = k
    · subst hpk
      refine ⟨⟨fun x hx => ?_, fun x hx hp => ?_, fun ks hn hk hp ht => ?_, fun ks hn hk hp ht x hx hl => ?_⟩, ?_, ?_⟩
      · rw [Ledger.setLamports_other _ _ hx]; exact setLamports_data _ _ _
      · rw [Ledger.setLamports_other _ _ hx, Ledger.setLamports_other _ _ hx]
      · apply total_congr
        intro x hx
        by_cases hxp : x = p
        · subst hxp
          rw [Ledger.setLamports_same, Ledger.setLamports_same]
          simp only
          have := le_total hk L
          rw [e64] at *
          omega
        · rw [Ledger.setLamports_other _ _ hxp, Ledger.setLamports_other _ _ hxp]
      · rw [Ledger.setLamports_other _ _ hx, Ledger.setLamports_other _ _ hx] at hl; omega
      · rw [Ledger.setLamports_same]; exact (setLamports_data _ _ _).1
      · rw [Ledger.setLamports_same]; exact (setLamports_data _ _ _).2
    · have hkp : k ≠ p := fun h => hpk h.symm
      refine ⟨⟨fun x hx => ?_, fun x hx hp => ?_, fun ks hn hk hp ht => ?_,
        fun ks hn hk hp ht x hx hl => ?_⟩, ?_, ?_⟩
      · rw [Ledger.setLamports_other _ _ hx]; exact setLamports_data _ _ _
      · rw [Ledger.setLamports_other _ _ hx, Ledger.setLamports_other]
        rintro rfl; exact hp rfl
      · have hpm := hp p rfl
        have h0 := add_le_total hn hk hpm hpk L
        have h1 := total_setLamports hn hpm L (((L p).lamports + delta) % two64)
        have h2 := total_setLamports hn hk
          (L.setLamports p (((L p).lamports + delta) % two64))
          (((L.setLamports p (((L p).lamports + delta) % two64) k).lamports + two64 - delta) % two64)
        rw [Ledger.setLamports_other _ _ hkp] at h2 ⊢
        rw [e64] at *
        omega
      · rw [Ledger.setLamports_other _ _ hx] at hl
        by_cases hxp : x = p
        · subst hxp
          rw [Ledger.setLamports_same] at hl
          have h0 := add_le_total hn hk (hp x rfl) hpk L
          simp only at hl
          rw [e64] at *
          omega
        · rw [Ledger.setLamports_other _ _ hxp] at hl; omega
      · rw [Ledger.setLamports_same]; exact (setLamports_data _ _ _).1
      · rw [Ledger.setLamports_same]; exact (setLamports_data _ _ _).2

theorem resizeFund_eff {size : Nat} (h : resizeFund E L size k payer sys = .ok L') :
    Eff E k payer L L' ∧ (L' k).data = (L k).data ∧ (L' k).owner = (L k).owner ∧
      ((L k).owner ≠ Key.system → (L k).lamports ≤ (L' k).lamports) := by
  unfold resizeFund at h
  inv at h
  obtain ⟨_, h⟩ := h
  split at h
  · cases payer with
    | none => cases h
    | some p =>
      cases sys with
      | none => cases h
      | some s =>
        inv at h
        obtain ⟨_, _, h⟩ := h
        obtain ⟨h1, h2, h3, h4⟩ := systemTransfer_eff h
        exact ⟨h1, h2, h3, fun hk => h4 (Or.inr hk) hk⟩
  · obtain rfl := pure_ok.mp h
    exact ⟨Eff.refl, rfl, rfl, fun _ => Nat.le_refl _⟩

theorem realloc_eff {size : Nat} (h : realloc E L k size = .ok L') :
    Eff E k payer L L' ∧ (L' k).data = reallocBytes (L k).data size ∧
      (L' k).owner = (L k).owner ∧ (L' k).lamports = (L k).lamports := by
  unfold realloc at h
  split at h
  · rename_i hs
    cases h
    refine ⟨Eff.refl, ?_, rfl, rfl⟩
    unfold reallocBytes
    subst hs
    simp [zeros]
  · split at h
    · cases h
    · cases h
      rw [Ledger.setData_same]
      exact ⟨Eff.setData _, rfl, rfl, rfl⟩

/-- Resizing: only the length of the account changes; it loses lamports only when it
shrinks. -/
theorem resize_eff {size : Nat} (h : resize E L size k payer sys = .ok L') :
    Eff E k payer L L' ∧ (L' k).data = reallocBytes (L k).data size ∧
      (L' k).owner = (L k).owner ∧
      ((L k).owner ≠ Key.system → (L k).data.length ≤ size →
        (L k).lamports ≤ (L' k).lamports) := by
  unfold resize at h
  inv at h
  obtain ⟨L1, h1, h2⟩ := h
  obtain ⟨e2, d2, o2, l2⟩ := realloc_eff (payer := payer) h2
  unfold resizeLamports at h1
  split at h1
  · rename_i hlt
    obtain ⟨e1, d1, o1⟩ := resizeRefund_eff h1
    refine ⟨e1.trans e2, by rw [d2, d1], by rw [o2, o1], fun _ hle => ?_⟩
    exact absurd hlt (by omega)
  · obtain ⟨e1, d1, o1, l1⟩ := resizeFund_eff h1
    refine ⟨e1.trans e2, by rw [d2, d1], by rw [o2, o1], fun ho _ => ?_⟩
    rw [l2]; exact l1 ho

theorem systemCreate_eff {p : Key} {n space : Nat}
    (h : systemCreate E L p k n space E.program = .ok L') :
    Eff E k (some p) L L' ∧ L' k = ⟨n, zeros space, E.program⟩ ∧ (L k).data = [] ∧
      (L k).lamports = 0 ∧ (L k).owner = Key.system ∧ E.signer k = true ∧ p ≠ k := by
  unfold systemCreate at h
  split at h
  · rename_i hc
    obtain ⟨hs, _, hsk, _, hne, ho, _, hle, hko, hkd, hkl, _, _⟩ := hc
    simp only at h
    cases h
    refine ⟨⟨fun x hx => ?_, fun x hx hp => ?_, fun ks hn hk hp ht => ?_,
      fun ks hn hk hp ht x hx hl => ?_⟩, ?_, hkd, hkl, hko, hsk, hne⟩
    · rw [Ledger.set_other _ _ hx]; exact setLamports_data _ _ _
    · rw [Ledger.set_other _ _ hx, Ledger.setLamports_other]
      rintro rfl; exact hp rfl
    · have hpm := hp p rfl
      have h1 := total_setLamports hn hpm L ((L p).lamports - n)
      have h2 := total_setLamports hn hk (L.setLamports p ((L p).lamports - n)) n
      have h3 : total ks ((L.setLamports p ((L p).lamports - n)).set k ⟨n, zeros space, E.program⟩) =
          total ks ((L.setLamports p ((L p).lamports - n)).setLamports k n) := by
        apply total_congr
        intro x _
        by_cases hx : x = k
        · subst hx; rw [Ledger.set_same, Ledger.setLamports_same]
        · rw [Ledger.set_other _ _ hx, Ledger.setLamports_other _ _ hx]
      rw [Ledger.setLamports_other _ _ (fun h => hne h.symm)] at h2
      omega
    · rw [Ledger.set_other _ _ hx] at hl
      by_cases hxp : x = p
      · subst hxp; exact ⟨hs, ho⟩
      · rw [Ledger.setLamports_other _ _ hxp] at hl; omega
    · rw [Ledger.set_same]
  · cases h

theorem createAccount_eff {space : Nat} (h : createAccount E L k payer sys space = .ok L') :
    Eff E k payer L L' ∧ (L' k).data = zeros space ∧ (L' k).owner = E.program ∧
      (L k).data = [] ∧ (L k).lamports = 0 ∧ (L k).owner = Key.system ∧ E.signer k = true := by
  unfold createAccount at h
  cases payer with
  | none => cases h
  | some p =>
    inv at h
    obtain ⟨_, h⟩ := h
    cases sys with
    | none => cases h
    | some s =>
      inv at h
      obtain ⟨_, h⟩ := h
      obtain ⟨h1, h2, h3, h4, h5, h6, _⟩ := systemCreate_eff h
      exact ⟨h1, by rw [h2], by rw [h2], h3, h4, h5, h6⟩

/-! ## Allocate, write, create -/

theorem allocateSpace_eff {n : UInt32} {ex : Bool} {off : Nat} {data : Bytes}
    (h : allocateSpace E L k payer sys n ex off data = .ok L') : Eff E k payer L L' ∧
    (L' k).owner = (if ex then (L k).owner else E.program) ∧
    (ex = false → (L k).lamports = 0 ∧ (L k).data = [] ∧ (L k).owner = Key.system) := by
  unfold allocateSpace at h
  cases ex with
  | false =>
    obtain ⟨e1, d1, o1, z1, z2, z3, _⟩ := createAccount_eff (by simpa using h)
    exact ⟨e1, by simpa using o1, fun _ => ⟨z2, z1, z3⟩⟩
  | true =>
    simp only [Bool.true_eq_false, if_false] at h
    split at h
    · obtain ⟨e1, _, o1, _⟩ := resize_eff h
      exact ⟨e1, by simpa using o1, fun h => absurd h (by simp)⟩
    · cases h
      exact ⟨Eff.refl, by simp, fun h => absurd h (by simp)⟩

theorem saveExtensionData_eff {x : ExtInput} {ex : Bool} {off : Nat} {data : Bytes}
    (h : saveExtensionData E L k payer sys x ex off data = .ok L') : Eff E k payer L L' ∧
    (L' k).owner = (if ex then (L k).owner else E.program) ∧
    (ex = false → (L k).lamports = 0 ∧ (L k).data = [] ∧ (L k).owner = Key.system) := by
  unfold saveExtensionData at h
  inv at h
  obtain ⟨L1, h1, d1, _, d2, _, rfl⟩ := h
  obtain ⟨e, o, z⟩ := allocateSpace_eff h1
  exact ⟨e.trans (Eff.setData _), by rw [Ledger.setData_same]; exact o, z⟩

theorem allocateOffset_ok {t : ExtType} {ex : Bool} {off : Nat}
    (h : allocateOffset E L k t = .ok (ex, off)) :
    (ex = false ∧ (L k).data = [] ∧ off = 168) ∨
    (ex = true ∧ (L k).owner = E.program ∧ 168 ≤ (L k).data.length ∧ hDisc (L k).data = 0) := by
  unfold allocateOffset at h
  simp only at h
  split at h
  · rename_i hd
    cases h
    exact Or.inl ⟨rfl, hd, rfl⟩
  · inv at h
    obtain ⟨ho, hl, hd, _, _, _, r, _, h⟩ := h
    right
    refine ⟨?_, ho, hl, hd⟩
    cases r with
    | none => cases h; rfl
    | some r => inv at h; cases h.2; rfl

/-- Frame of Allocate: the asset signed and was not initialised. -/
theorem processAllocate_eff {x : ExtInput} (h : processAllocate E L k payer sys x = .ok L') :
    Eff E k payer L L' ∧ E.signer k = true ∧ (L' k).owner = E.program ∧
    (((L k).data = [] ∧ (L k).owner = Key.system ∧ (L k).lamports = 0) ∨
     ((L k).owner = E.program ∧ 168 ≤ (L k).data.length ∧ hDisc (L k).data = 0)) := by
  unfold processAllocate at h
  inv at h
  obtain ⟨hs, ⟨ex, off⟩, ho, h⟩ := h
  have key : ∀ data, saveExtensionData E L k payer sys x ex off data = .ok L' →
      Eff E k payer L L' ∧ (L' k).owner = E.program ∧
      (((L k).data = [] ∧ (L k).owner = Key.system ∧ (L k).lamports = 0) ∨
       ((L k).owner = E.program ∧ 168 ≤ (L k).data.length ∧ hDisc (L k).data = 0)) := by
    intro data hsv
    obtain ⟨e, o, z⟩ := saveExtensionData_eff hsv
    rcases allocateOffset_ok ho with ⟨rfl, hd, _⟩ | ⟨rfl, ho', hl, hd⟩
    · obtain ⟨z1, z2, z3⟩ := z rfl
      exact ⟨e, by simpa using o, Or.inl ⟨z2, z3, z1⟩⟩
    · exact ⟨e, by simpa [ho'] using o, Or.inr ⟨ho', hl, hd⟩⟩
  cases hd : x.data with
  | none =>
    rw [hd] at h
    obtain ⟨a, b, c⟩ := key _ h
    exact ⟨a, hs, b, c⟩
  | some data =>
    rw [hd] at h
    inv at h
    obtain ⟨a, b, c⟩ := key _ h.2
    exact ⟨a, hs, b, c⟩

theorem allocateAll_eff {xs : List ExtInput} (h : allocateAll E k payer sys xs L = .ok L')
    (ho : (L k).owner = E.program) :
    Eff E k payer L L' ∧ (L' k).owner = E.program := by
  induction xs generalizing L with
  | nil => cases h; exact ⟨Eff.refl, ho⟩
  | cons x xs ih =>
    rw [allocateAll] at h
    inv at h
    obtain ⟨L1, h1, h2⟩ := h
    obtain ⟨e1, _, o1, _⟩ := processAllocate_eff h1
    obtain ⟨e2, o2⟩ := ih h2 o1
    exact ⟨e1.trans e2, o2⟩

theorem processWrite_eff {p s : Key} {x : WriteInput} (h : processWrite E L k p s x = .ok L') :
    Eff E k (some p) L L' ∧ E.signer k = true ∧ (L k).owner = E.program ∧
      (L' k).owner = E.program ∧ 168 ≤ (L k).data.length ∧ hDisc (L k).data = 0 := by
  unfold processWrite at h
  inv at h
  obtain ⟨_, _, hs, ho, hl, hd, r, _, h⟩ := h
  cases r with
  | none => cases h
  | some r =>
    inv at h
    obtain ⟨_, L1, h1, d1, _, h⟩ := h
    obtain ⟨e1, _, o1, _⟩ := resize_eff h1
    split at h
    · obtain rfl := pure_ok.mp h
      exact ⟨e1.trans (Eff.setData _), hs, ho, by rw [Ledger.setData_same, ← ho]; exact o1, hl, hd⟩
    · inv at h
      obtain ⟨d2, _, rfl⟩ := h
      exact ⟨e1.trans (Eff.setData _), hs, ho, by rw [Ledger.setData_same, ← ho]; exact o1, hl, hd⟩

theorem createPrepare_eff {x : CreateInput} (h : createPrepare E L k payer sys x = .ok L') :
    Eff E k payer L L' ∧ (L' k).owner = E.program ∧
    (((L k).data = [] ∧ (L k).owner = Key.system ∧ (L k).lamports = 0) ∨
     ((L k).owner = E.program ∧ 168 ≤ (L k).data.length ∧ hDisc (L k).data = 0 ∧ L' = L)) := by
  unfold createPrepare at h
  simp only at h
  split at h
  · obtain ⟨e1, _, o1, z1, z2, z3, _⟩ := createAccount_eff h
    exact ⟨e1, o1, Or.inl ⟨z1, z3, z2⟩⟩
  · inv at h
    obtain ⟨h1, h2, h3, rfl⟩ := h
    exact ⟨Eff.refl, h1, Or.inr ⟨h1, h2, h3, rfl⟩⟩

/-! ## Update, remove, resize -/

theorem resizeIf_eff {c : Bool} {size : Nat} (h : resizeIf E c L size k payer sys = .ok L') :
    Eff E k payer L L' ∧ (L' k).owner = (L k).owner := by
  unfold resizeIf at h
  split at h
  · obtain ⟨e1, _, o1, _⟩ := resize_eff h
    exact ⟨e1, o1⟩
  · cases h; exact ⟨Eff.refl, rfl⟩

theorem updateMove_eff {cur : Option (Nat × Nat)} {n u : Nat} {delta : Int}
    (h : updateMove E L k payer sys cur n u delta = .ok L') :
    Eff E k payer L L' ∧ (L' k).owner = (L k).owner := by
  unfold updateMove at h
  cases cur with
  | none =>
    obtain ⟨e1, _, o1, _⟩ := resize_eff h
    exact ⟨e1, o1⟩
  | some c =>
    obtain ⟨len, b⟩ := c
    simp only at h
    split at h
    · cases h; exact ⟨Eff.refl, rfl⟩
    · inv at h
      obtain ⟨r, _, h⟩ := h
      cases r with
      | none => cases h
      | some r =>
        inv at h
        obtain ⟨L1, h1, d, _, h⟩ := h
        obtain ⟨e1, o1⟩ := resizeIf_eff h1
        obtain ⟨e2, o2⟩ := resizeIf_eff h
        refine ⟨(e1.trans (Eff.setData _)).trans e2, ?_⟩
        rw [o2, Ledger.setData_same]; exact o1

theorem updateFinish_eff {t : ExtType} {off : Nat} {cur : Option (Nat × Nat)} {pl : Bytes}
    (h : updateFinish E L k payer sys t off cur pl = .ok L') :
    Eff E k payer L L' ∧ (L' k).owner = (L k).owner := by
  unfold updateFinish at h
  inv at h
  obtain ⟨L1, h1, d1, _, d2, _, d3, _, rfl⟩ := h
  obtain ⟨e1, o1⟩ := updateMove_eff h1
  exact ⟨e1.trans (Eff.setData _), by rw [Ledger.setData_same]; exact o1⟩

theorem updateArgs_eff {au : Key} {x : ExtInput} (h : updateArgs E L k au payer sys x = .ok L') :
    Eff E k payer L L' ∧ (L' k).owner = (L k).owner := by
  unfold updateArgs at h
  inv at h
  obtain ⟨⟨off, cur⟩, _, pl, _, _, _, h⟩ := h
  exact updateFinish_eff h

/-- An update from a buffer writes into the buffer, then works on the asset. -/
theorem updateBuffer_eff {au b : Key} (h : updateBuffer E L k au b payer sys = .ok L') :
    ∃ d, Eff E k payer (L.setData b d) L' ∧ (L' k).owner = (L k).owner ∧ b ≠ k ∧
      (L b).owner = E.program ∧ hDisc (L b).data = 0 ∧ d.length = (L b).data.length ∧
      d.take 168 = (L b).data.take 168 := by
  unfold updateBuffer at h
  inv at h
  obtain ⟨hbo, hne, hbl, hbd, h⟩ := h
  cases hf : firstExtension (L b).data with
  | none => rw [hf] at h; cases h
  | some r =>
    rw [hf] at h
    obtain ⟨hd, o⟩ := r
    simp only at h
    cases ht : ExtType.ofU32 hd.ty with
    | none => rw [ht] at h; cases h
    | some t =>
      rw [ht] at h
      inv at h
      obtain ⟨⟨off, cur⟩, _, _, _, old, _, v, hv, _, h⟩ := h
      have hvl := updateValidate_length hv
      rw [length_slice (by assumption)] at hvl
      refine ⟨splice (L b).data assetLen v, (updateFinish_eff h).1, ?_, hne, hbo, hbd,
        length_splice (by omega), ?_⟩
      · rw [(updateFinish_eff h).2, Ledger.setData_other _ _ (fun h => hne h.symm)]
      · unfold splice assetLen
        rw [List.append_assoc, List.take_append_of_le_length (by have : assetLen = 168 := rfl; simp; omega), List.take_take]
        simp

/-- Frame of Update: the signing authority of a mutable initialised asset. The buffer, when
given, is an uninitialised account of the program whose header does not change. -/
theorem processUpdate_eff {au : Key} {buf : Option Key} {x : UpdateInput}
    (h : processUpdate E L k au buf payer sys x = .ok L') :
    (∃ L1, (∀ y, y ≠ k → buf ≠ some y → L1 y = L y) ∧
      (∀ b, buf = some b → b ≠ k ∧ ((L1 b).lamports = (L b).lamports ∧ (L1 b).owner = (L b).owner ∧
        (L1 b).data.length = (L b).data.length ∧ (L1 b).data.take 168 = (L b).data.take 168) ∧
        (L b).owner = E.program ∧ hDisc (L b).data = 0) ∧
      ((L1 k).lamports = (L k).lamports ∧ (L1 k).owner = (L k).owner ∧
        (L1 k).data = updateHeader (L k).data x) ∧ Eff E k payer L1 L' ∧
      (L' k).owner = (L k).owner) ∧
    E.signer au = true ∧ (L k).owner = E.program ∧ Initialized (L k).data ∧
    hAuthority (L k).data = au ∧ hMutable (L k).data = true := by
  unfold processUpdate at h
  inv at h
  obtain ⟨hs, ho, hi, ha, hm, h⟩ := h
  refine ⟨?_, hs, ho, hi, ha, hm⟩
  have e0 : ∀ y, y ≠ k → (L.setData k (updateHeader (L k).data x)) y = L y :=
    fun y hy => Ledger.setData_other _ _ hy
  have ek : (L.setData k (updateHeader (L k).data x)) k =
      ⟨(L k).lamports, updateHeader (L k).data x, (L k).owner⟩ := Ledger.setData_same _ _ _
  cases hx : x.extension with
  | none =>
    rw [hx] at h
    cases buf with
    | none =>
      obtain rfl := pure_ok.mp h
      exact ⟨_, fun y hy _ => e0 y hy, by simp, by rw [ek]; exact ⟨rfl, rfl, rfl⟩, Eff.refl, by rw [ek]⟩
    | some b =>
      obtain ⟨d, e1, o1, hne, hbo, hbd, hl, ht⟩ := updateBuffer_eff h
      rw [ek] at o1
      rw [e0 b hne] at hbo hbd hl ht
      refine ⟨_, fun y hy hb => ?_, fun b' hb' => ?_, ?_, e1, o1⟩
      · rw [Ledger.setData_other _ _ (by rintro rfl; exact hb rfl), e0 y hy]
      · cases hb'
        rw [Ledger.setData_same, e0 b hne]
        exact ⟨hne, ⟨rfl, rfl, hl, ht⟩, hbo, hbd⟩
      · rw [Ledger.setData_other _ _ (fun h => hne h.symm), ek]; exact ⟨rfl, rfl, rfl⟩
  | some e =>
    rw [hx] at h
    cases buf with
    | none =>
      obtain ⟨e1, o1⟩ := updateArgs_eff h
      rw [ek] at o1
      exact ⟨_, fun y hy _ => e0 y hy, by simp, by rw [ek]; exact ⟨rfl, rfl, rfl⟩, e1, o1⟩
    | some b => cases h

theorem processRemove_eff {au r : Key} {t : ExtType}
    (h : processRemove E L k au r t = .ok L') :
    Eff E k (some r) L L' ∧ (L' k).owner = (L k).owner ∧ E.signer au = true ∧
    (L k).owner = E.program ∧ Initialized (L k).data ∧ hAuthority (L k).data = au ∧
    hMutable (L k).data = true := by
  unfold processRemove at h
  inv at h
  obtain ⟨hs, ho, hi, ha, hm, r, _, h⟩ := h
  cases r with
  | none => cases h
  | some r =>
    inv at h
    obtain ⟨_, d1, _, h⟩ := h
    obtain ⟨e1, _, o1, _⟩ := resize_eff h
    exact ⟨(Eff.setData _).trans e1, by rw [o1, Ledger.setData_same], hs, ho, hi, ha, hm⟩

theorem processResize_eff {au p : Key} {s : Strategy}
    (h : processResize E L k au p sys s = .ok L') :
    Eff E k (some p) L L' ∧ (L' k).owner = (L k).owner ∧ E.signer au = true ∧
    (L k).owner = E.program ∧ Initialized (L k).data ∧ hAuthority (L k).data = au ∧
    hMutable (L k).data = true ∧
    ∃ size, resizeTarget (L k).data s = .ok size ∧
      (L' k).data = reallocBytes (L k).data size := by
  unfold processResize at h
  inv at h
  obtain ⟨hs, ho, hi, ha, hm, size, hsz, h⟩ := h
  obtain ⟨e1, d1, o1, _⟩ := resize_eff h
  exact ⟨e1, o1, hs, ho, hi, ha, hm, size, hsz, d1⟩

end Verif
