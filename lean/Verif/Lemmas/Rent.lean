import Verif.Spec.Rent
import Verif.Lemmas.Loss
import Verif.Lemmas.Lookup
import Verif.Lemmas.CreateLayout

/-!
# Rent: lemmas
-/

namespace Verif

open Verif.Spec

variable {E : Env} {k p : Key} {payer sys : Option Key} {L L' L'' : Ledger}

theorem supply_total (h : Supply L) (ks : List Key) (hn : ks.Nodup) : total ks L < two64 := h ks hn

theorem supply_pair (h : Supply L) {x y : Key} (hxy : x ≠ y) :
    (L x).lamports + (L y).lamports < two64 := by
  have e : two64 = 18446744073709551616 := rfl
  have := h [x, y] (by simp [hxy])
  rw [e]
  simpa using this

theorem total_cons_le (x : Key) (ks : List Key) (L : Ledger) : total ks L ≤ total (x :: ks) L := by
  simp [total]

/-- Lists can be extended by an account. -/
theorem nodup_with (x : Key) {ks : List Key} (hn : ks.Nodup) : ∃ ks' : List Key, ks'.Nodup ∧ x ∈ ks' ∧
    (∀ y ∈ ks, y ∈ ks') ∧ ∀ L, total ks L ≤ total ks' L := by
  by_cases hx : x ∈ ks
  · exact ⟨ks, hn, hx, fun _ h => h, fun _ => Nat.le_refl _⟩
  · exact ⟨x :: ks, List.nodup_cons.mpr ⟨hx, hn⟩, by simp, fun y h => List.mem_cons_of_mem _ h,
      total_cons_le x ks⟩

theorem Eff.supply (e : Eff E k payer L L') (h : Supply L) : Supply L' := by
  intro ks hn
  obtain ⟨k1, n1, m1, s1, t1⟩ := nodup_with k hn
  cases payer with
  | none =>
    have := e.conserve k1 n1 m1 (by simp) (supply_total h k1 n1)
    exact Nat.lt_of_le_of_lt (t1 L') (this ▸ supply_total h k1 n1)
  | some q =>
    obtain ⟨k2, n2, m2, s2, t2⟩ := nodup_with q n1
    have := e.conserve k2 n2 (s2 _ m1) (by rintro _ ⟨⟩; exact m2) (supply_total h k2 n2)
    exact Nat.lt_of_le_of_lt (Nat.le_trans (t1 L') (t2 L')) (this ▸ supply_total h k2 n2)

/-- Every account that held its rent holds its rent afterwards. -/
def Pays (E : Env) (L L' : Ledger) : Prop :=
  Supply L → Supply L' ∧ ∀ x, Solvent E.rent L x → Solvent E.rent L' x

theorem Pays.refl : Pays E L L := fun h => ⟨h, fun _ h => h⟩

theorem Pays.trans (h1 : Pays E L L') (h2 : Pays E L' L'') : Pays E L L'' := fun h =>
  ⟨(h2 (h1 h).1).1, fun x hx => (h2 (h1 h).1).2 x ((h1 h).2 x hx)⟩

theorem solvent_congr {rent : Nat → Nat} {x : Key} (hd : (L' x).data.length = (L x).data.length)
    (hl : (L x).lamports ≤ (L' x).lamports) (h : Solvent rent L x) : Solvent rent L' x := by
  rcases h with h | h
  · left
    rw [h] at hd
    exact List.length_eq_zero_iff.mp hd
  · right; rw [hd]; exact Nat.le_trans h hl

theorem pays_setData {d : Bytes} (h : d.length = (L k).data.length) : Pays E L (L.setData k d) := by
  intro hu
  refine ⟨(Eff.setData (E := E) (payer := none) d).supply hu, fun x hx => ?_⟩
  by_cases hxk : x = k
  · subst hxk
    exact solvent_congr (by rw [Ledger.setData_same]; exact h) (by rw [Ledger.setData_same]; exact Nat.le_refl _) hx
  · exact solvent_congr (by rw [Ledger.setData_other _ _ hxk]) (by rw [Ledger.setData_other _ _ hxk]; exact Nat.le_refl _) hx

/-- What the two accounts hold after a refund. -/
theorem resizeRefund_lamports {size : Nat} (h : resizeRefund E L size k (some p) = .ok L')
    (hu : Supply L) :
    (p = k → (L' k).lamports = (L k).lamports) ∧
    (p ≠ k → (L' k).lamports = min (L k).lamports (if size = 0 then 0 else E.rent size) ∧
      (L' p).lamports + (L' k).lamports = (L p).lamports + (L k).lamports) := by
  unfold resizeRefund at h
  simp only at h
  cases h
  have e64 : two64 = 18446744073709551616 := rfl
  generalize (if size = 0 then 0 else E.rent size) = r
  have hk : (L k).lamports < two64 := by rw [e64]; simpa using hu [k] (by simp)
  constructor
  · rintro rfl
    rw [Ledger.setLamports_same, Ledger.setLamports_same]
    simp only
    rw [e64] at *
    omega
  · intro hpk
    have hkp : k ≠ p := fun h => hpk h.symm
    have h2 := supply_pair hu hpk
    rw [Ledger.setLamports_same, Ledger.setLamports_other _ _ hpk, Ledger.setLamports_other _ _ hkp,
      Ledger.setLamports_same]
    simp only
    rw [e64] at *
    omega

theorem resizeFund_lamports {size : Nat} (h : resizeFund E L size k payer sys = .ok L')
    (ho : (L k).owner ≠ Key.system) :
    (L' k).lamports = max (L k).lamports (E.rent size) ∧
    (∀ x, payer = some x → x ≠ k → (L' x).lamports + (L' k).lamports = (L x).lamports + (L k).lamports) ∧
    (∀ x, (L' x).lamports < (L x).lamports → (L x).data = []) := by
  unfold resizeFund at h
  inv at h
  obtain ⟨_, h⟩ := h
  split at h
  · rename_i hd
    cases payer with
    | none => cases h
    | some q =>
      cases sys with
      | none => cases h
      | some s =>
        inv at h
        obtain ⟨_, _, h⟩ := h
        unfold systemTransfer at h
        split at h
        · rename_i hc
          obtain ⟨_, _, _, hq, he, hle⟩ := hc
          have hqk : q ≠ k := by rintro rfl; exact ho hq
          have hkq : k ≠ q := fun h => hqk h.symm
          simp only at h
          split at h
          · cases h
            refine ⟨?_, fun x hx _ => ?_, fun x hx => ?_⟩
            · rw [Ledger.setLamports_same, Ledger.setLamports_other _ _ hkq]; simp only; omega
            · cases hx
              rw [Ledger.setLamports_same, Ledger.setLamports_other _ _ hqk, Ledger.setLamports_same,
                Ledger.setLamports_other _ _ hkq]
              simp only
              omega
            · by_cases hxk : x = k
              · subst hxk
                rw [Ledger.setLamports_same, Ledger.setLamports_other _ _ hkq] at hx
                simp only at hx; omega
              · rw [Ledger.setLamports_other _ _ hxk] at hx
                by_cases hxq : x = q
                · subst hxq; exact he
                · rw [Ledger.setLamports_other _ _ hxq] at hx; omega
          · cases h
        · cases h
  · obtain rfl := pure_ok.mp h
    exact ⟨by omega, fun _ _ _ => rfl, fun x hx => absurd hx (by omega)⟩

/-- What the account and the payer hold after a resize. -/
theorem resize_exact {size : Nat} (h : resize E L size k payer sys = .ok L')
    (ho : (L k).owner ≠ Key.system) (hr : Rising E.rent) (hu : Supply L) (hp : payer ≠ some k)
    (hs : Solvent E.rent L k) :
    (L' k).lamports = afterResize E.rent (L k).data.length (L k).lamports size ∧
    (L' k).data.length = size ∧
    (∀ x, payer = some x → (L' x).lamports + (L' k).lamports = (L x).lamports + (L k).lamports) := by
  obtain ⟨_, hd, _⟩ := resize_eff h
  unfold resize at h
  inv at h
  obtain ⟨L1, h1, h2⟩ := h
  obtain ⟨e2, d2, o2, l2⟩ := realloc_eff (payer := none) h2
  have hx : ∀ x, x ≠ k → L' x = L1 x := fun x hxk => e2.other x hxk (by simp)
  refine ⟨?_, by rw [hd, length_reallocBytes], fun x hx' => ?_⟩
  · rw [l2]
    unfold resizeLamports at h1
    unfold afterResize
    split at h1
    · rename_i hlt
      cases payer with
      | none => cases h1
      | some q =>
        rw [((resizeRefund_lamports h1 hu).2 (by rintro rfl; exact hp rfl)).1, if_pos hlt]
        have : E.rent (L k).data.length ≤ (L k).lamports := by
          rcases hs with hs | hs
          · rw [hs] at hlt; cases hlt
          · exact hs
        have := hr size _ (Nat.le_of_lt hlt)
        split <;> omega
    · rename_i hlt
      rw [(resizeFund_lamports h1 ho).1, if_neg hlt]
  · subst hx'
    have hxk : x ≠ k := by rintro rfl; exact hp rfl
    rw [l2, hx x hxk]
    unfold resizeLamports at h1
    split at h1
    · exact ((resizeRefund_lamports h1 hu).2 hxk).2
    · exact (resizeFund_lamports h1 ho).2.1 x rfl hxk

theorem pays_resize {size : Nat} (h : resize E L size k payer sys = .ok L')
    (ho : (L k).owner ≠ Key.system) (hr : Rising E.rent) : Pays E L L' := by
  intro hu
  obtain ⟨e, hd, _⟩ := resize_eff h
  refine ⟨e.supply hu, fun x hx => ?_⟩
  unfold resize at h
  inv at h
  obtain ⟨L1, h1, h2⟩ := h
  obtain ⟨e2, d2, o2, l2⟩ := realloc_eff (payer := none) h2
  unfold resizeLamports at h1
  by_cases hxk : x = k
  · subst hxk
    by_cases hz : size = 0
    · left; rw [hd, hz]; exact List.length_eq_zero_iff.mp (length_reallocBytes _ _)
    · right
      rw [hd, length_reallocBytes, l2]
      split at h1
      · rename_i hlt
        have hrl : E.rent (L x).data.length ≤ (L x).lamports := by
          rcases hx with hs | hs
          · rw [hs] at hlt; cases hlt
          · exact hs
        have hm := hr size _ (Nat.le_of_lt hlt)
        cases payer with
        | none => cases h1
        | some q =>
          by_cases hq : q = x
          · rw [(resizeRefund_lamports h1 hu).1 hq]; omega
          · rw [((resizeRefund_lamports h1 hu).2 hq).1, if_neg hz]; omega
      · rw [(resizeFund_lamports h1 ho).1]; omega
  · have hdx := (e.data x hxk).1
    by_cases hl : (L x).lamports ≤ (L' x).lamports
    · exact solvent_congr (by rw [hdx]) hl hx
    · left
      rw [hdx]
      have e1 : L' x = L1 x := e2.other x hxk (by simp)
      rw [e1] at hl
      split at h1
      · cases payer with
        | none => cases h1
        | some q =>
          by_cases hq : q = x
          · subst hq
            have h3 := resizeRefund_lamports h1 hu
            have := (h3.2 hxk).2
            have := (h3.2 hxk).1
            omega
          · have := (resizeRefund_eff h1).1.other x hxk (by simpa using hq)
            rw [this] at hl; omega
      · exact (resizeFund_lamports h1 ho).2.2 x (by omega)

theorem pays_create {space : Nat} (h : createAccount E L k payer sys space = .ok L') :
    Pays E L L' := by
  intro hu
  obtain ⟨e, hd, _⟩ := createAccount_eff h
  refine ⟨e.supply hu, fun x hx => ?_⟩
  unfold createAccount at h
  cases payer with
  | none => cases h
  | some q =>
    inv at h
    obtain ⟨_, h⟩ := h
    cases sys with
    | none => cases h
    | some s =>
      inv at h
      obtain ⟨_, h⟩ := h
      have hk := (systemCreate_eff h).2.1
      unfold systemCreate at h
      split at h
      · rename_i hc
        simp only at h
        cases h
        by_cases hxk : x = k
        · subst hxk
          right
          rw [Ledger.set_same]
          simp [zeros]
        · rw [show Solvent E.rent _ x ↔ _ from Iff.rfl]
          unfold Solvent
          rw [Ledger.set_other _ _ hxk]
          by_cases hxq : x = q
          · subst hxq
            left
            rw [Ledger.setLamports_same]
            exact hc.2.2.2.2.2.2.1
          · rw [Ledger.setLamports_other _ _ hxq]; exact hx
      · cases h

theorem pays_close {r : Key} (h : closeAccount L k r = .ok L') : Pays E L L' := by
  intro hu
  have he := Effect.close (E := E) (K := [k]) (P := [r]) h (by simp) (by simp)
  constructor
  · intro ks hn
    obtain ⟨k1, n1, m1, s1, t1⟩ := nodup_with k hn
    obtain ⟨k2, n2, m2, s2, t2⟩ := nodup_with r n1
    have := he.conserve k2 n2 (by rintro x hx; rw [List.mem_singleton.mp hx]; exact s2 _ m1)
      (by rintro x hx; rw [List.mem_singleton.mp hx]; exact m2) (supply_total hu k2 n2)
    exact Nat.lt_of_le_of_lt (Nat.le_trans (t1 L') (t2 L')) (this ▸ supply_total hu k2 n2)
  · intro x hx
    unfold closeAccount at h
    split at h
    · cases h
    · split at h
      · cases h
      · cases h
        by_cases hxk : x = k
        · subst hxk; left; rw [Ledger.set_same]
        · unfold Solvent
          rw [Ledger.set_other _ _ hxk]
          by_cases hxr : x = r
          · subst hxr
            rw [Ledger.setLamports_same]
            rcases hx with h | h
            · exact Or.inl h
            · right; simp only; omega
          · rw [Ledger.setLamports_other _ _ hxr]; exact hx

/-! ## The parts of an instruction -/

theorem ne_nil_of_le {d : Bytes} (h : 168 ≤ d.length) : d ≠ [] := by
  intro h0
  rw [h0] at h
  exact absurd h (by decide)

theorem ne_nil_of_length {d d' : Bytes} (h : d'.length = d.length) (hd : d ≠ []) : d' ≠ [] := by
  intro h0
  rw [h0] at h
  exact hd (List.length_eq_zero_iff.mp h.symm)

/-- A change of the ledger made of: other bytes of the same number, resizes of accounts that are
not system accounts, accounts created and accounts closed. The accounts in `P` pay and receive. -/
inductive Parts (E : Env) (P : List Key) : Ledger → Ledger → Prop
  | refl {L : Ledger} : Parts E P L L
  | trans {L L' L'' : Ledger} (h1 : Parts E P L L') (h2 : Parts E P L' L'') : Parts E P L L''
  | setData {L : Ledger} {k : Key} {d : Bytes} (h : d.length = (L k).data.length) :
      Parts E P L (L.setData k d)
  | resize {L L' : Ledger} {k : Key} {payer sys : Option Key} {size : Nat}
      (h : Verif.resize E L size k payer sys = .ok L') (ho : (L k).owner ≠ Key.system)
      (hd : (L k).data ≠ []) (hp : ∀ x, payer = some x → x ∈ P) : Parts E P L L'
  | create {L L' : Ledger} {k : Key} {payer sys : Option Key} {space : Nat}
      (h : createAccount E L k payer sys space = .ok L') (hp : ∀ x, payer = some x → x ∈ P) :
      Parts E P L L'
  | close {L L' : Ledger} {k r : Key} (h : closeAccount L k r = .ok L') (hr : r ∈ P) :
      Parts E P L L'

theorem Parts.pays {P : List Key} (h : Parts E P L L') (hr : Rising E.rent) : Pays E L L' := by
  induction h with
  | refl => exact Pays.refl
  | trans _ _ h1 h2 => exact h1.trans h2
  | setData h => exact pays_setData h
  | resize h ho _ _ => exact pays_resize h ho hr
  | create h _ => exact pays_create h
  | close h _ => exact pays_close h

theorem tight_congr {rent : Nat → Nat} {x : Key} (hd : (L' x).data.length = (L x).data.length)
    (hl : (L' x).lamports = (L x).lamports) (h : Thrifty rent L x) : Thrifty rent L' x := by
  rcases h with h | h
  · left
    rw [h] at hd
    exact List.length_eq_zero_iff.mp hd
  · right; rw [hd, hl]; exact h

theorem Parts.tight {P : List Key} (h : Parts E P L L') (hr : Rising E.rent) (hu : Supply L)
    {x : Key} (hx : x ∉ P) (ht : Thrifty E.rent L x) : Thrifty E.rent L' x := by
  induction h with
  | refl => exact ht
  | trans h1 _ i1 i2 => exact i2 ((h1.pays hr) hu).1 (i1 hu ht)
  | @setData L k d h =>
    by_cases hxk : x = k
    · subst hxk
      exact tight_congr (by rw [Ledger.setData_same]; exact h) (by rw [Ledger.setData_same]) ht
    · exact tight_congr (by rw [Ledger.setData_other _ _ hxk]) (by rw [Ledger.setData_other _ _ hxk]) ht
  | @resize L L' k payer sys size h ho hd hp =>
    by_cases hxk : x = k
    · subst hxk
      have hs : Solvent E.rent L x := ht.imp _root_.id fun h => Nat.le_of_eq h.symm
      obtain ⟨h1, h2, _⟩ := resize_exact h ho hr hu (fun h => hx (hp _ h)) hs
      by_cases hz : size = 0
      · left; rw [hz] at h2; exact List.length_eq_zero_iff.mp h2
      · right
        rw [h1, h2]
        unfold afterResize
        by_cases hlt : size < (L x).data.length
        · rw [if_pos hlt, if_neg hz]
        · rw [if_neg hlt]
          rcases ht with ht | ht
          · exact absurd ht hd
          · rw [ht]
            have := hr _ _ (Nat.not_lt.mp hlt)
            omega
    · have := (resize_eff h).1.other x hxk (fun h => hx (hp _ h))
      exact tight_congr (by rw [this]) (by rw [this]) ht
  | @create L L' k payer sys space h hp =>
    by_cases hxk : x = k
    · subst hxk
      right
      unfold createAccount at h
      cases payer with
      | none => cases h
      | some q =>
        inv at h
        obtain ⟨_, h⟩ := h
        cases sys with
        | none => cases h
        | some s =>
          inv at h
          obtain ⟨_, h⟩ := h
          rw [(systemCreate_eff h).2.1]
          simp [zeros]
    · have := (createAccount_eff h).1.other x hxk (fun h => hx (hp _ h))
      exact tight_congr (by rw [this]) (by rw [this]) ht
  | @close L L' k r h hr' =>
    by_cases hxk : x = k
    · subst hxk
      left
      unfold closeAccount at h
      split at h
      · cases h
      · split at h
        · cases h
        · cases h; rw [Ledger.set_same]
    · have := (Effect.close (E := E) (K := [k]) (P := P) h (by simp) hr').other x (by simpa using hxk) hx
      exact tight_congr (by rw [this]) (by rw [this]) ht

variable {P : List Key}

theorem parts_setData {d : Bytes} (h : d.length = (L k).data.length) :
    Parts E P L (L.setData k d) := .setData h

theorem parts_resize {size : Nat} (h : resize E L size k payer sys = .ok L')
    (ho : (L k).owner ≠ Key.system) (hd : (L k).data ≠ []) (hp : ∀ x, payer = some x → x ∈ P) :
    Parts E P L L' := .resize h ho hd hp

theorem parts_create {space : Nat} (h : createAccount E L k payer sys space = .ok L')
    (hp : ∀ x, payer = some x → x ∈ P) : Parts E P L L' := .create h hp

theorem parts_close {r : Key} (h : closeAccount L k r = .ok L') (hr : r ∈ P) : Parts E P L L' :=
  .close h hr

/-! ## Every instruction -/

theorem parts_allocateSpace {n : UInt32} {ex : Bool} {off : Nat} {data : Bytes}
    (h : allocateSpace E L k payer sys n ex off data = .ok L') (hp : ∀ x, payer = some x → x ∈ P)
    (ho : ex = true → (L k).owner ≠ Key.system ∧ (L k).data ≠ []) : Parts E P L L' := by
  unfold allocateSpace at h
  cases ex with
  | false => exact parts_create (by simpa using h) hp
  | true =>
    simp only [Bool.true_eq_false, if_false] at h
    split at h
    · exact parts_resize h (ho rfl).1 (ho rfl).2 hp
    · cases h; exact Parts.refl

theorem parts_allocate {x : ExtInput} (h : processAllocate E L k payer sys x = .ok L')
    (hp : ∀ x, payer = some x → x ∈ P) (hsys : E.program ≠ Key.system) : Parts E P L L' := by
  unfold processAllocate at h
  inv at h
  obtain ⟨_, ⟨ex, off⟩, ho, h⟩ := h
  have key : ∀ data, saveExtensionData E L k payer sys x ex off data = .ok L' → Parts E P L L' := by
    intro data hs
    unfold saveExtensionData at hs
    inv at hs
    obtain ⟨L1, h1, d1, hd1, d2, hd2, rfl⟩ := hs
    refine (parts_allocateSpace h1 hp fun hx => ?_).trans
      (parts_setData (by rw [copyData_length hd2, writeHdr_length hd1]))
    rcases allocateOffset_ok ho with ⟨hf, _⟩ | ⟨_, ho', hl, _⟩
    · rw [hf] at hx; cases hx
    · exact ⟨by rw [ho']; exact hsys, ne_nil_of_le hl⟩
  cases hd : x.data with
  | none => rw [hd] at h; exact key _ h
  | some data => rw [hd] at h; inv at h; exact key _ h.2

theorem parts_allocateAll {xs : List ExtInput} (h : allocateAll E k payer sys xs L = .ok L')
    (hp : ∀ x, payer = some x → x ∈ P) (hsys : E.program ≠ Key.system) : Parts E P L L' := by
  induction xs generalizing L with
  | nil => cases h; exact Parts.refl
  | cons x xs ih =>
    rw [allocateAll] at h
    inv at h
    obtain ⟨L1, h1, h2⟩ := h
    exact (parts_allocate h1 hp hsys).trans (ih h2)

theorem writeValidate_length {d d' : Bytes} (h : writeValidate d = .ok d') : d'.length = d.length := by
  unfold writeValidate at h
  inv at h
  obtain ⟨r, _, h⟩ := h
  cases r with
  | none => cases h
  | some r =>
    obtain ⟨hd, off⟩ := r
    simp only at h
    split at h
    · cases h
    · split at h
      · cases h
      · rename_i t _ hl
        inv at h
        obtain ⟨q, hq, rfl⟩ := h
        have ho := mapLife_ok.mp hq
        have := onCreate_length ho
        rw [length_slice (by omega)] at this
        exact length_splice (by omega)

theorem parts_group {a g au : Key} (h : processGroup E L a g au = .ok L') : Parts E P L L' := by
  unfold processGroup at h
  inv at h
  obtain ⟨_, _, _, hi, hne, hg, _, _, r, hx, h⟩ := h
  cases r with
  | none => cases h
  | some r =>
    obtain ⟨off, q⟩ := r
    inv at h
    obtain ⟨gr, hgr, _, _, rfl⟩ := h
    refine (parts_setData (length_setGroup hi.1 _)).trans (parts_setData ?_)
    rw [Ledger.setData_other _ _ hne]
    have h1 := extGet_range hx
    have h2 := readGrouping_length hgr
    have h3 := hg.1
    rw [List.length_drop] at h1
    apply length_splice
    rw [length_setGroupSize _ h2.1]
    omega

theorem parts_ungroup {a g au : Key} (h : processUngroup E L a g au = .ok L') : Parts E P L L' := by
  unfold processUngroup at h
  inv at h
  obtain ⟨_, _, _, hi, hne, hg, _, r, hx, h⟩ := h
  cases r with
  | none => cases h
  | some r =>
    obtain ⟨off, q⟩ := r
    inv at h
    obtain ⟨gr, hgr, _, rfl⟩ := h
    refine (parts_setData (length_setGroup hi.1 _)).trans (parts_setData ?_)
    rw [Ledger.setData_other _ _ hne]
    have h1 := extGet_range hx
    have h2 := readGrouping_length hgr
    have h3 := hg.1
    rw [List.length_drop] at h1
    apply length_splice
    rw [length_setGroupSize _ h2.1]
    omega

theorem parts_setVerified {a c : Key} {v : Bool} (h : processSetVerified E L a c v = .ok L') :
    Parts E P L L' := by
  unfold processSetVerified at h
  inv at h
  obtain ⟨_, _, _, r, hx, h⟩ := h
  cases r with
  | none => cases h
  | some r =>
    obtain ⟨off, q⟩ := r
    inv at h
    obtain ⟨cs, hcs, _, rfl⟩ := h
    have h1 := assetGetMut_range hx
    rw [readCreators_eq] at hcs
    refine parts_setData (length_splice ?_)
    rw [length_creatorsBytes_map, ← hcs]
    omega

theorem parts_burn {a s : Key} {r g : Option Key} (h : processBurn E L a s r g = .ok L')
    (hr : r.getD s ∈ P) : Parts E P L L' := by
  unfold processBurn at h
  inv at h
  obtain ⟨_, _, _, _, _, _, L1, hb, res, _, h⟩ := h
  have e1 : Parts E P L L1 := by
    unfold burnGroup at hb
    split at hb
    · cases hb; exact Parts.refl
    · split at hb
      · cases hb
      · inv at hb
        obtain ⟨_, _, r, hx, hb⟩ := hb
        cases r with
        | none => cases hb
        | some r =>
          obtain ⟨off, q⟩ := r
          inv at hb
          obtain ⟨gr, hgr, _, rfl⟩ := hb
          have h1 := assetGetMut_range hx
          refine parts_setData (length_splice ?_)
          rw [length_setGroupSize _ (readGrouping_length hgr).1]
          omega
  cases res with
  | none => exact e1.trans (parts_close h hr)
  | some p =>
    inv at h
    obtain ⟨_, _, _, h⟩ := h
    exact e1.trans (parts_close h hr)

theorem length_createHeader {d : Bytes} (hd : 168 ≤ d.length) (o au : Key) (x : CreateInput) :
    (createHeader d o au x).length = d.length := by
  unfold createHeader
  have h1 := length_setByte hd 0 discAsset (by omega)
  have h2 := length_setByte (d := setByte d 0 discAsset) (by omega) 2 x.standard.toU8 (by omega)
  have h3 := length_setMutable (d := setByte (setByte d 0 discAsset) 2 x.standard.toU8) (by omega)
    x.isMutable
  have h4 := length_setOwner (d := setMutable (setByte (setByte d 0 discAsset) 2 x.standard.toU8)
    x.isMutable) (by omega) o
  have h5 := length_setAuthority (d := setOwner (setMutable (setByte (setByte d 0 discAsset) 2
    x.standard.toU8) x.isMutable) o) (by omega) au
  rw [length_setName (by omega)]
  omega

theorem parts_processCreate {a au o : Key} {g ga : Option Key} {x : CreateInput}
    (h : processCreate E L a au o g ga payer sys x = .ok L') (hp : ∀ x, payer = some x → x ∈ P)
    (hsys : E.program ≠ Key.system) : Parts E P L L' := by
  obtain ⟨_, L1, L2, d, types, h1, h2, hl, hv, _, _, h3⟩ := processCreate_inv h
  have p1 : Parts E P L L1 := by
    unfold createPrepare at h1
    simp only at h1
    split at h1
    · exact parts_create h1 hp
    · inv at h1
      obtain ⟨_, _, _, rfl⟩ := h1
      exact Parts.refl
  obtain ⟨_, _, _, _, _, _, _, _, _, hlen, _⟩ := createValidate_walk hv hl
  have p2 : Parts E P L2 (L2.setData a (createHeader d o au x)) :=
    parts_setData (by rw [length_createHeader (by omega), hlen])
  have p3 := (p1.trans (parts_allocateAll h2 hp hsys)).trans p2
  rcases h3 with ⟨_, rfl⟩ | ⟨g', _, h3⟩
  · exact p3
  · exact p3.trans (parts_group h3)

/-! ## Instructions that resize once -/

/-- The account `k` and the payer hold exactly what they should after a change of size. -/
def Settles (E : Env) (payer : Option Key) (k : Key) (L L' : Ledger) : Prop :=
  (L' k).lamports = afterResize E.rent (L k).data.length (L k).lamports (L' k).data.length ∧
  ∀ x, payer = some x → (L' x).lamports + (L' k).lamports = (L x).lamports + (L k).lamports

/-- The same accounts with other bytes of the same number. -/
def Alike (k : Key) (L L' : Ledger) : Prop :=
  (∀ x, (L' x).lamports = (L x).lamports) ∧ (L' k).data.length = (L k).data.length ∧
    (L' k).owner = (L k).owner

theorem Alike.setData {x : Key} {d : Bytes} (h : x = k → d.length = (L k).data.length) :
    Alike k L (L.setData x d) := by
  refine ⟨fun y => ?_, ?_, ?_⟩
  · by_cases hy : y = x
    · subst hy; rw [Ledger.setData_same]
    · rw [Ledger.setData_other _ _ hy]
  · by_cases hk : k = x
    · subst hk; rw [Ledger.setData_same]; exact h rfl
    · rw [Ledger.setData_other _ _ hk]
  · by_cases hk : k = x
    · subst hk; rw [Ledger.setData_same]
    · rw [Ledger.setData_other _ _ hk]

theorem Alike.trans (h1 : Alike k L L') (h2 : Alike k L' L'') : Alike k L L'' :=
  ⟨fun x => (h2.1 x).trans (h1.1 x), h2.2.1.trans h1.2.1, h2.2.2.trans h1.2.2⟩

theorem Alike.supply (h : Alike k L L') (hu : Supply L) : Supply L' := by
  intro ks hn
  rw [show (fun x => (L' x).lamports) = fun x => (L x).lamports from funext h.1]
  exact hu ks hn

theorem Alike.solvent {rent : Nat → Nat} (h : Alike k L L') (hs : Solvent rent L k) :
    Solvent rent L' k := solvent_congr h.2.1 (Nat.le_of_eq (h.1 k).symm) hs

theorem Settles.before (h1 : Alike k L L') (h2 : Settles E payer k L' L'') :
    Settles E payer k L L'' := by
  unfold Settles at *
  rw [h1.2.1, h1.1] at h2
  refine ⟨h2.1, fun x hx => ?_⟩
  rw [h2.2 x hx, h1.1]

theorem Settles.after (h1 : Settles E payer k L L') (h2 : Alike k L' L'') :
    Settles E payer k L L'' := by
  unfold Settles at *
  rw [h2.2.1, h2.1]
  refine ⟨h1.1, fun x hx => ?_⟩
  rw [h2.1, h1.2 x hx]

theorem Settles.same (h : Alike k L L') (hs : Solvent E.rent L k) (hd : (L k).data ≠ []) :
    Settles E payer k L L' := by
  refine ⟨?_, fun x _ => by rw [h.1, h.1]⟩
  rw [h.1, h.2.1]
  unfold afterResize
  rw [if_neg (by omega)]
  rcases hs with hs | hs
  · exact absurd hs hd
  · omega

theorem Settles.resize {size : Nat} (h : Verif.resize E L size k payer sys = .ok L')
    (ho : (L k).owner ≠ Key.system) (hr : Rising E.rent) (hu : Supply L) (hp : payer ≠ some k)
    (hs : Solvent E.rent L k) : Settles E payer k L L' := by
  obtain ⟨h1, h2, h3⟩ := resize_exact h ho hr hu hp hs
  exact ⟨by rw [h1, h2], h3⟩

theorem Settles.resizeIf {c : Bool} {size : Nat} (h : Verif.resizeIf E c L size k payer sys = .ok L')
    (ho : (L k).owner ≠ Key.system) (hr : Rising E.rent) (hu : Supply L) (hp : payer ≠ some k)
    (hs : Solvent E.rent L k) (hd : (L k).data ≠ []) : Settles E payer k L L' := by
  unfold Verif.resizeIf at h
  split at h
  · exact Settles.resize h ho hr hu hp hs
  · cases h; exact Settles.same ⟨fun _ => rfl, rfl, rfl⟩ hs hd

theorem updateMove_settles {cur : Option (Nat × Nat)} {n u : Nat} {delta : Int}
    (h : updateMove E L k payer sys cur n u delta = .ok L')
    (ho : (L k).owner ≠ Key.system) (hr : Rising E.rent) (hu : Supply L) (hp : payer ≠ some k)
    (hs : Solvent E.rent L k) (hd : (L k).data ≠ []) : Settles E payer k L L' := by
  unfold updateMove at h
  cases cur with
  | none => exact Settles.resize h ho hr hu hp hs
  | some c =>
    obtain ⟨len, b⟩ := c
    simp only at h
    split at h
    · cases h; exact Settles.same ⟨fun _ => rfl, rfl, rfl⟩ hs hd
    · inv at h
      obtain ⟨r, _, h⟩ := h
      cases r with
      | none => cases h
      | some r =>
        inv at h
        obtain ⟨L1, h1, d, hd', h2⟩ := h
        have hdl := memmove_length hd'
        by_cases hpos : 0 < delta
        · have hneg : decide (delta < 0) = false := decide_eq_false (by omega)
          rw [hneg] at h2
          obtain rfl := resizeIf_false h2
          exact (Settles.resizeIf h1 ho hr hu hp hs hd).after (Alike.setData fun _ => hdl)
        · rw [decide_eq_false hpos] at h1
          obtain rfl := resizeIf_false h1
          have ha : Alike k L1 (L1.setData k d) := Alike.setData fun _ => hdl
          exact Settles.before ha (Settles.resizeIf h2 (by rw [ha.2.2]; exact ho) hr (ha.supply hu) hp
            (ha.solvent hs) (ne_nil_of_length ha.2.1 hd))

theorem updateFinish_settles {t : ExtType} {off : Nat} {cur : Option (Nat × Nat)} {pl : Bytes}
    (h : updateFinish E L k payer sys t off cur pl = .ok L')
    (ho : (L k).owner ≠ Key.system) (hr : Rising E.rent) (hu : Supply L) (hp : payer ≠ some k)
    (hs : Solvent E.rent L k) (hd : (L k).data ≠ []) : Settles E payer k L L' := by
  unfold updateFinish at h
  inv at h
  obtain ⟨L1, h1, d1, e1, d2, e2, d3, e3, rfl⟩ := h
  exact (updateMove_settles h1 ho hr hu hp hs hd).after (Alike.setData fun _ => by
    rw [copyData_length e3, fixBoundaries_length e2, writeHdr_length e1])

/-- An update is: other bytes in the asset and in the buffer, then the change of size. -/
theorem update_split {au : Key} {buf : Option Key} {x : UpdateInput}
    (h : processUpdate E L k au buf payer sys x = .ok L') :
    ∃ L1, Parts E P L L1 ∧ Alike k L L1 ∧ (L1 = L' ∨ ∃ t off cur pl,
      updateFinish E L1 k payer sys t off cur pl = .ok L') := by
  unfold processUpdate at h
  inv at h
  obtain ⟨_, _, hi, _, _, h⟩ := h
  have hlen := length_updateHeader x hi.1
  have p0 : Parts E P L (L.setData k (updateHeader (L k).data x)) := parts_setData hlen
  have a0 : Alike k L (L.setData k (updateHeader (L k).data x)) := Alike.setData fun _ => hlen
  generalize L.setData k (updateHeader (L k).data x) = M at *
  cases hx : x.extension with
  | none =>
    rw [hx] at h
    cases buf with
    | none =>
      simp only at h
      obtain rfl := pure_ok.mp h
      exact ⟨_, p0, a0, .inl rfl⟩
    | some b =>
      simp only at h
      unfold updateBuffer at h
      inv at h
      obtain ⟨_, hne, _, _, h⟩ := h
      cases hf : firstExtension (M b).data with
      | none => rw [hf] at h; cases h
      | some r =>
        rw [hf] at h
        obtain ⟨hd, o⟩ := r
        simp only at h
        cases ht : ExtType.ofU32 hd.ty with
        | none => rw [ht] at h; cases h
        | some t =>
          rw [ht] at h
          inv at h
          obtain ⟨⟨off, cur⟩, _, _, hb, old, _, v, hv, _, h⟩ := h
          have hvl := updateValidate_length hv
          rw [length_slice (by assumption)] at hvl
          have hl : (splice (M b).data assetLen v).length = (M b).data.length :=
            length_splice (by omega)
          exact ⟨_, p0.trans (parts_setData hl), a0.trans (Alike.setData fun h => absurd h hne),
            .inr ⟨_, _, _, _, h⟩⟩
  | some e =>
    rw [hx] at h
    cases buf with
    | some b => cases h
    | none =>
      simp only at h
      unfold updateArgs at h
      inv at h
      obtain ⟨⟨off, cur⟩, _, pl, _, _, _, h⟩ := h
      exact ⟨_, p0, a0, .inr ⟨_, _, _, _, h⟩⟩

theorem parts_resizeIf {c : Bool} {size : Nat} (h : resizeIf E c L size k payer sys = .ok L')
    (ho : (L k).owner ≠ Key.system) (hd : (L k).data ≠ []) (hp : ∀ x, payer = some x → x ∈ P) :
    Parts E P L L' := by
  unfold resizeIf at h
  split at h
  · exact parts_resize h ho hd hp
  · cases h; exact Parts.refl

theorem parts_updateMove {cur : Option (Nat × Nat)} {n u : Nat} {delta : Int}
    (h : updateMove E L k payer sys cur n u delta = .ok L') (ho : (L k).owner ≠ Key.system)
    (hd : (L k).data ≠ []) (hp : ∀ x, payer = some x → x ∈ P) : Parts E P L L' := by
  unfold updateMove at h
  cases cur with
  | none => exact parts_resize h ho hd hp
  | some c =>
    obtain ⟨len, b⟩ := c
    simp only at h
    split at h
    · cases h; exact Parts.refl
    · inv at h
      obtain ⟨r, _, h⟩ := h
      cases r with
      | none => cases h
      | some r =>
        inv at h
        obtain ⟨L2, h2, d, hd', h3⟩ := h
        have hdl := memmove_length hd'
        by_cases hpos : 0 < delta
        · have hneg : decide (delta < 0) = false := decide_eq_false (Int.lt_asymm hpos)
          rw [hneg] at h3
          obtain rfl := resizeIf_false h3
          exact (parts_resizeIf h2 ho hd hp).trans (parts_setData hdl)
        · rw [decide_eq_false hpos] at h2
          obtain rfl := resizeIf_false h2
          exact (parts_setData hdl).trans (parts_resizeIf h3 (by rw [Ledger.setData_same]; exact ho)
            (by rw [Ledger.setData_same]; exact ne_nil_of_length hdl hd) hp)

theorem parts_updateFinish {t : ExtType} {off : Nat} {cur : Option (Nat × Nat)} {pl : Bytes}
    (h : updateFinish E L k payer sys t off cur pl = .ok L') (ho : (L k).owner ≠ Key.system)
    (hd : (L k).data ≠ []) (hp : ∀ x, payer = some x → x ∈ P) : Parts E P L L' := by
  unfold updateFinish at h
  inv at h
  obtain ⟨L1, h1, d1, e1, d2, e2, d3, e3, rfl⟩ := h
  exact (parts_updateMove h1 ho hd hp).trans (parts_setData (by
    rw [copyData_length e3, fixBoundaries_length e2, writeHdr_length e1]))

theorem parts_update {au : Key} {buf : Option Key} {x : UpdateInput}
    (h : processUpdate E L k au buf payer sys x = .ok L') (hp : ∀ x, payer = some x → x ∈ P)
    (hsys : E.program ≠ Key.system) : Parts E P L L' := by
  obtain ⟨_, _, ho, hi, _⟩ := processUpdate_eff h
  obtain ⟨L1, p1, a1, h1⟩ := update_split (P := P) h
  rcases h1 with rfl | ⟨t, off, cur, pl, h1⟩
  · exact p1
  · exact p1.trans (parts_updateFinish h1 (by rw [a1.2.2, ho]; exact hsys)
      (ne_nil_of_length a1.2.1 (ne_nil_of_le hi.1)) hp)

theorem update_settles {au : Key} {buf : Option Key} {x : UpdateInput}
    (h : processUpdate E L k au buf payer sys x = .ok L') (hr : Rising E.rent)
    (hsys : E.program ≠ Key.system) (hu : Supply L) (hp : payer ≠ some k)
    (hs : Solvent E.rent L k) : Settles E payer k L L' := by
  obtain ⟨_, _, ho, hi, _⟩ := processUpdate_eff h
  have hd : (L k).data ≠ [] := ne_nil_of_le hi.1
  obtain ⟨L1, _, a1, h1⟩ := update_split (P := []) h
  rcases h1 with rfl | ⟨t, off, cur, pl, h1⟩
  · exact Settles.same a1 hs hd
  · exact Settles.before a1 (updateFinish_settles h1 (by rw [a1.2.2, ho]; exact hsys) hr
      (a1.supply hu) hp (a1.solvent hs) (ne_nil_of_length a1.2.1 hd))

/-- Remove: other bytes, then a resize. -/
theorem remove_split {au r : Key} {t : ExtType} (h : processRemove E L k au r t = .ok L') :
    ∃ d size, d.length = (L k).data.length ∧
      resize E (L.setData k d) size k (some r) none = .ok L' := by
  unfold processRemove at h
  inv at h
  obtain ⟨_, _, _, _, _, r, _, h⟩ := h
  cases r with
  | none => cases h
  | some r =>
    inv at h
    obtain ⟨_, d1, hd, h⟩ := h
    exact ⟨d1, _, memmove_length hd, h⟩

/-- Write: a resize, then other bytes. -/
theorem write_split {s : Key} {x : WriteInput} (h : processWrite E L k p s x = .ok L') :
    ∃ size L1 d, resize E L size k (some p) (some s) = .ok L1 ∧ d.length = (L1 k).data.length ∧
      L' = L1.setData k d := by
  unfold processWrite at h
  inv at h
  obtain ⟨_, _, _, _, _, _, r, _, h⟩ := h
  cases r with
  | none => cases h
  | some r =>
    inv at h
    obtain ⟨_, L1, h1, d1, hd1, h⟩ := h
    split at h
    · obtain rfl := pure_ok.mp h
      exact ⟨_, L1, d1, h1, memcpy_length hd1, rfl⟩
    · inv at h
      obtain ⟨d2, hd2, rfl⟩ := h
      exact ⟨_, L1, d2, h1, by rw [writeValidate_length hd2, memcpy_length hd1], rfl⟩

/-- Every instruction. -/
theorem execute_parts {accts : List Key} {i : Instr} (h : execute E L accts i = .ok L')
    (hsys : E.program ≠ Key.system) : Parts E (payKeys i accts) L L' := by
  cases i with
  | close =>
    obtain ⟨b, r, rest, rfl, hp⟩ := exec_close h
    unfold processClose at hp
    inv at hp
    exact parts_close hp.2.2.2 (by simp [payKeys, Instr.payPositions])
  | burn =>
    obtain ⟨a, s, r, g, rest, rfl, hp⟩ := exec_burn h
    refine parts_burn hp ?_
    unfold optAcc
    split <;> simp [payKeys, Instr.payPositions]
  | create x =>
    obtain ⟨a, au, o, g, ga, p, s, rest, rfl, hp⟩ := exec_create h
    exact parts_processCreate hp
      (fun y hy => optAcc_mem (by simp [payKeys, Instr.payPositions]) hy) hsys
  | approve x =>
    obtain ⟨a, o, d, rest, rfl, hp⟩ := exec_approve h
    unfold processApprove at hp
    inv at hp
    obtain ⟨_, hi, _, _, hp⟩ := hp
    split at hp <;> obtain rfl := pure_ok.mp hp <;>
      exact parts_setData (by first | exact length_setDelegate hi.1 _ _ | exact length_setRoles hi.1 _)
  | allocate x =>
    obtain ⟨a, p, s, rest, rfl, hp⟩ := exec_allocate h
    exact parts_allocate hp
      (fun y hy => optAcc_mem (by simp [payKeys, Instr.payPositions]) hy) hsys
  | lock =>
    obtain ⟨a, s, rest, rfl, hp⟩ := exec_lock h
    unfold processLock at hp
    inv at hp
    obtain ⟨_, _, hi, _, rfl⟩ := hp
    exact parts_setData (length_setState hi.1 _)
  | revoke x =>
    obtain ⟨a, s, rest, rfl, hp⟩ := exec_revoke h
    unfold processRevoke at hp
    inv at hp
    obtain ⟨_, _, hi, _, hp⟩ := hp
    cases x with
    | all => obtain rfl := pure_ok.mp hp; exact parts_setData (length_setDelegate hi.1 _ _)
    | some rs =>
      simp only at hp
      split at hp
      · split at hp <;> obtain rfl := pure_ok.mp hp <;> 
          exact parts_setData (by first | exact length_setDelegate hi.1 _ _ | exact length_setRoles hi.1 _)
      · obtain rfl := pure_ok.mp hp; exact Parts.refl
  | transfer =>
    obtain ⟨a, s, r, g, rest, rfl, hp⟩ := exec_transfer h
    unfold processTransfer at hp
    inv at hp
    obtain ⟨_, _, hi, _, _, _, _, _, _, hp⟩ := hp
    split at hp
    · obtain rfl := pure_ok.mp hp; exact Parts.refl
    · inv at hp
      obtain ⟨_, rfl⟩ := hp
      have h1 := length_setOwner hi.1 r
      have h2 := hi.1
      exact parts_setData (by rw [length_setDelegate (by rw [h1]; exact h2), h1])
  | unlock =>
    obtain ⟨a, s, rest, rfl, hp⟩ := exec_unlock h
    unfold processUnlock at hp
    inv at hp
    obtain ⟨_, _, hi, _, rfl⟩ := hp
    exact parts_setData (length_setState hi.1 _)
  | unverify =>
    obtain ⟨a, s, rest, rfl, hp⟩ := exec_unverify h
    exact parts_setVerified hp
  | update x =>
    obtain ⟨a, au, b, g, p, s, rest, rfl, hp⟩ := exec_update h
    exact parts_update hp
      (fun y hy => optAcc_mem (by simp [payKeys, Instr.payPositions]) hy) hsys
  | verify =>
    obtain ⟨a, s, rest, rfl, hp⟩ := exec_verify h
    exact parts_setVerified hp
  | write x =>
    obtain ⟨a, p, s, rest, rfl, hp⟩ := exec_write h
    obtain ⟨_, _, ho, _, hl, _⟩ := processWrite_eff hp
    obtain ⟨size, L1, d, h1, hd, rfl⟩ := write_split hp
    exact (parts_resize h1 (by rw [ho]; exact hsys) (ne_nil_of_le hl)
      (by rintro y ⟨⟩; simp [payKeys, Instr.payPositions])).trans (parts_setData hd)
  | group =>
    obtain ⟨a, g, au, rest, rfl, hp⟩ := exec_group h
    exact parts_group hp
  | ungroup =>
    obtain ⟨a, g, au, rest, rfl, hp⟩ := exec_ungroup h
    exact parts_ungroup hp
  | handover =>
    obtain ⟨a, au, na, rest, rfl, hp⟩ := exec_handover h
    unfold processHandover at hp
    inv at hp
    obtain ⟨_, _, _, hi, _, _, rfl⟩ := hp
    exact parts_setData (length_setAuthority hi.1 _)
  | remove t =>
    obtain ⟨a, au, g, r, rest, rfl, hp⟩ := exec_remove h
    obtain ⟨_, _, _, ho, hi, _⟩ := processRemove_eff hp
    obtain ⟨d, size, hd, h1⟩ := remove_split hp
    exact (parts_setData hd).trans (parts_resize h1 (by rw [Ledger.setData_same]; exact ho ▸ hsys)
      (by rw [Ledger.setData_same]; exact ne_nil_of_length hd (ne_nil_of_le hi.1))
      (by rintro y ⟨⟩; simp [payKeys, Instr.payPositions]))
  | resize s =>
    obtain ⟨a, au, p, y, rest, rfl, hp⟩ := exec_resize h
    obtain ⟨_, _, _, ho, hi, _⟩ := processResize_eff hp
    unfold processResize at hp
    inv at hp
    obtain ⟨_, _, _, _, _, size, _, hp⟩ := hp
    exact parts_resize hp (by rw [ho]; exact hsys) (ne_nil_of_le hi.1)
      (by rintro y ⟨⟩; simp [payKeys, Instr.payPositions])

end Verif
