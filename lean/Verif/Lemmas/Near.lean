import Verif.Lemmas.Memory
import Verif.Lemmas.Frame
import Verif.Lemmas.Loss

/-!
# Lemmas on changes that keep to one account of the memory
-/

namespace Verif

variable {M : Loader} {E : Env} {R R' R'' : Ram} {k : Key} {payer sys : Option Key} {accts : List Key}

/-- Only the bytes of account `k` change, besides the lamports of `k` and the payer. -/
structure Near (k : Key) (payer : Option Key) (R R' : Ram) : Prop where
  data : ∀ x, x ≠ k → (R'.led x).data = (R.led x).data ∧ (R'.led x).owner = (R.led x).owner
  other : ∀ x, x ≠ k → payer ≠ some x → R'.led x = R.led x
  behind : ∀ x, x ≠ k → R'.behind x = R.behind x
  cap : R'.cap k = R.cap k
  lamports : ∀ x, (R.led x).lamports < two64 → (R'.led x).lamports < two64

theorem Near.refl : Near k payer R R :=
  ⟨fun _ _ => ⟨rfl, rfl⟩, fun _ _ _ => rfl, fun _ _ => rfl, rfl, fun _ h => h⟩

theorem Near.trans (h1 : Near k payer R R') (h2 : Near k payer R' R'') : Near k payer R R'' where
  data x hx := ⟨(h2.data x hx).1.trans (h1.data x hx).1, (h2.data x hx).2.trans (h1.data x hx).2⟩
  other x hx hp := (h2.other x hx hp).trans (h1.other x hx hp)
  behind x hx := (h2.behind x hx).trans (h1.behind x hx)
  cap := h2.cap.trans h1.cap
  lamports x h := h2.lamports x (h1.lamports x h)

/-- Amounts fit into 64 bits. -/
def Numeric (R : Ram) (accts : List Key) : Prop :=
  ∀ x ∈ accts, (R.led x).lamports < two64 ∧ (R.led x).data.length < two64

theorem Near.numeric (h : Near k payer R R') (hn : Numeric R accts) (hc : R.cap k < two64) :
    Numeric R' accts := by
  intro x hx
  refine ⟨h.lamports x (hn x hx).1, ?_⟩
  by_cases hk : x = k
  · subst hk
    have := h.cap
    unfold Ram.cap at this hc
    omega
  · rw [(h.data x hk).1]; exact (hn x hx).2

theorem near_split {b : Bytes} {n : Nat} (hb : b.length = R.cap k) (hle : n ≤ b.length) :
    Near k payer R (R.split k b n) where
  data x hx := by simp only [Ram.split]; rw [Ledger.setData_other _ _ hx]; exact ⟨rfl, rfl⟩
  other x hx _ := Ledger.setData_other _ _ hx
  behind x hx := if_neg hx
  cap := by
    unfold Ram.split
    simp only [Ram.cap, Ledger.setData_same, if_true, List.length_take, List.length_drop]
    unfold Ram.cap at hb
    omega
  lamports x h := by
    simp only [Ram.split]
    by_cases hx : x = k
    · subst hx; rw [Ledger.setData_same]; exact h
    · rw [Ledger.setData_other _ _ hx]; exact h

theorem near_setData {d : Bytes} (hd : d.length = (R.led k).data.length) :
    Near k payer R (R.set (R.led.setData k d)) where
  data x hx := by simp only [Ram.set]; rw [Ledger.setData_other _ _ hx]; exact ⟨rfl, rfl⟩
  other x hx _ := Ledger.setData_other _ _ hx
  behind x hx := rfl
  cap := by simp only [Ram.cap, Ram.set, Ledger.setData_same, hd]
  lamports x h := by
    simp only [Ram.set]
    by_cases hx : x = k
    · subst hx; rw [Ledger.setData_same]; exact h
    · rw [Ledger.setData_other _ _ hx]; exact h

theorem resizeLamports_bounded {L L1 : Ledger} {size : Nat}
    (h : resizeLamports E L size k payer sys = .ok L1) (x : Key) (hx : (L x).lamports < two64) :
    (L1 x).lamports < two64 := by
  have e64 : two64 = 18446744073709551616 := rfl
  unfold resizeLamports at h
  split at h
  · unfold resizeRefund at h
    cases payer with
    | none => cases h
    | some p =>
      cases h
      by_cases h1 : x = k
      · subst h1; rw [Ledger.setLamports_same]; exact Nat.mod_lt _ (by omega)
      · rw [Ledger.setLamports_other _ _ h1]
        by_cases h2 : x = p
        · subst h2; rw [Ledger.setLamports_same]; exact Nat.mod_lt _ (by omega)
        · rw [Ledger.setLamports_other _ _ h2]; exact hx
  · unfold resizeFund at h
    inv at h
    obtain ⟨_, h⟩ := h
    split at h
    · cases payer with
      | none => cases h
      | some p =>
        cases sys with
        | none => cases h
        | some s =>
          inv at h
          obtain ⟨_, _, h⟩ := h
          unfold systemTransfer at h
          split at h
          · simp only at h
            split at h
            · cases h
              by_cases h1 : x = k
              · subst h1; rw [Ledger.setLamports_same]; assumption
              · rw [Ledger.setLamports_other _ _ h1]
                by_cases h2 : x = p
                · subst h2; rw [Ledger.setLamports_same]; simp only; omega
                · rw [Ledger.setLamports_other _ _ h2]; exact hx
            · cases h
          · cases h
    · cases h; exact hx

theorem resizeLamports_eff {L L1 : Ledger} {size : Nat}
    (h : resizeLamports E L size k payer sys = .ok L1) :
    Eff E k payer L L1 ∧ (L1 k).data = (L k).data ∧ (L1 k).owner = (L k).owner := by
  unfold resizeLamports at h
  split at h
  · exact resizeRefund_eff h
  · obtain ⟨h1, h2, h3, _⟩ := resizeFund_eff h
    exact ⟨h1, h2, h3⟩

theorem near_lamports {L1 : Ledger} {size : Nat}
    (h : resizeLamports E R.led size k payer sys = .ok L1) : Near k payer R (R.set L1) := by
  obtain ⟨h1, h2, _⟩ := resizeLamports_eff h
  exact ⟨h1.data, h1.other, fun _ _ => rfl, by simp only [Ram.cap, Ram.set, h2],
    resizeLamports_bounded h⟩

/-- Resizing keeps the bytes of the account. -/
theorem resizeRaw_near {size : Nat} (h : resizeRaw E R size k payer sys = .ok R')
    (ho : E.origLen k + maxIncrease ≤ R.cap k) :
    Near k payer R R' ∧ (R'.led k).data.length = size ∧ size ≤ R.cap k ∧
      (R'.led k).owner = (R.led k).owner := by
  unfold resizeRaw at h
  inv at h
  obtain ⟨L1, h1, h2⟩ := h
  have n1 := near_lamports h1
  have hd := (resizeLamports_eff h1).2.1
  have hw := (resizeLamports_eff h1).2.2
  have hc : R.cap k = (R.led k).data.length + (R.behind k).length := rfl
  unfold reallocRaw at h2
  split at h2
  · rename_i hs
    cases h2
    refine ⟨n1, hs.symm, ?_, hw⟩
    simp only [Ram.set] at hs
    rw [hd] at hs
    omega
  · split at h2
    · cases h2
    · cases h2
      have hle : size ≤ (R.set L1).cap k := by have := n1.cap; omega
      refine ⟨n1.trans (near_split (length_all k) (by rw [length_all]; exact hle)), ?_, by omega, ?_⟩
      · simp only [Ram.split, Ledger.setData_same, List.length_take, length_all]; omega
      · simp only [Ram.split, Ledger.setData_same]; exact hw

theorem resizeIfRaw_near {size : Nat} {c : Bool} (h : resizeIfRaw E c R size k payer sys = .ok R')
    (ho : E.origLen k + maxIncrease ≤ R.cap k) :
    Near k payer R R' ∧ (c = true → (R'.led k).data.length = size ∧ size ≤ R.cap k) ∧
      (c = false → R' = R) := by
  unfold resizeIfRaw at h
  cases c with
  | true =>
    obtain ⟨h1, h2, h3, _⟩ := resizeRaw_near h ho
    exact ⟨h1, fun _ => ⟨h2, h3⟩, by simp⟩
  | false => cases h; exact ⟨Near.refl, by simp, fun _ => rfl⟩

/-- A write within the bytes of the account. -/
theorem writeRaw_near {dst : Nat} {bs : Bytes} (hk : k ∈ accts) (hn : Numeric R accts)
    (h : writeRaw M E R accts k dst bs = .ok R') (hle : dst + bs.length ≤ R.cap k) :
    Near k payer R R' ∧ (R'.led k).data.length = (R.led k).data.length := by
  rw [writeRaw_split hk hn hle] at h
  cases h
  have hla := length_all (R := R) k
  have hls : (splice (R.all k) dst bs).length = R.cap k := by rw [length_splice (by omega), hla]
  have hc : R.cap k = (R.led k).data.length + (R.behind k).length := rfl
  refine ⟨near_split hls (by omega), ?_⟩
  simp only [Ram.split, Ledger.setData_same, List.length_take]; omega

/-- An account that a write does not reach. -/
theorem writeRaw_other {x : Key} {dst : Nat} {bs : Bytes} (hn : Numeric R accts)
    (h : writeRaw M E R accts k dst bs = .ok R')
    (hx : x ∈ accts → place M E R accts k + 88 + dst + bs.length ≤ place M E R accts x + 40 ∨
      place M E R accts x + 88 + R.cap x ≤ place M E R accts k + 88 + dst) :
    R'.led x = R.led x ∧ R'.behind x = R.behind x := by
  unfold writeRaw at h
  simp only at h
  split at h
  · cases h
  · rw [readBack_ok h]
    simp only
    by_cases hm : x ∈ accts
    · rw [if_pos hm, if_pos hm]
      refine readAccount_same hm (hn x hm) fun j h1 h2 => ?_
      rw [getElem?_splice (by omega)]
      rcases hx hm with g | g
      · rw [if_neg (by omega), if_neg (by omega)]
      · rw [if_pos (by omega)]
    · rw [if_neg hm, if_neg hm]; exact ⟨rfl, rfl⟩

/-- A write never reaches the head of the account itself. -/
theorem writeRaw_length {dst : Nat} {bs : Bytes} (hk : k ∈ accts) (hn : Numeric R accts)
    (h : writeRaw M E R accts k dst bs = .ok R') :
    (R'.led k).data.length = (R.led k).data.length ∧ (R'.led k).lamports = (R.led k).lamports ∧
      (R'.led k).owner = (R.led k).owner ∧ R'.cap k = R.cap k := by
  have hfit := slot_fits (M := M) (E := E) (R := R) hk
  have hlk := length_slot (M := M) (E := E) (R := R) k
  have hc : R.cap k = (R.led k).data.length + (R.behind k).length := rfl
  unfold writeRaw at h
  simp only at h
  split at h
  · cases h
  · rename_i hm
    rw [readBack_ok h]
    obtain ⟨a1, a2, a3⟩ := head_kept (M := M) (E := E) (R := R)
      (mem := splice (image M E R accts) (place M E R accts k + 88 + dst) bs) hk (hn k hk)
      fun j h1 h2 => by rw [getElem?_splice (by omega), if_pos (by omega)]
    have hl : (splice (image M E R accts) (place M E R accts k + 88 + dst) bs).length =
      (image M E R accts).length := length_splice (by omega)
    simp only [Ram.cap, if_pos hk, readAccount, readBehind, a1, a2, a3]
    rw [length_slice (by omega), length_slice (by omega)]
    refine ⟨rfl, trivial, trivial, ?_⟩
    omega

end Verif
