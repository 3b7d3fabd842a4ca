import Verif.Model.Proxy
import Verif.Lemmas.Bytes

/-!
# Decimal text
-/

namespace Verif

theorem byte_digit {n : Nat} (h : n < 10) :
    48 ≤ UInt8.ofNat (48 + n) ∧ UInt8.ofNat (48 + n) ≤ 57 ∧
      (UInt8.ofNat (48 + n)).toNat - 48 = n := by
  match n, h with
  | 0, _ | 1, _ | 2, _ | 3, _ | 4, _ | 5, _ | 6, _ | 7, _ | 8, _ | 9, _ => decide

theorem decimalDigits_ne {f n : Nat} (h : 0 < f) : decimalDigits f n ≠ [] := by
  cases f with
  | zero => omega
  | succ f => rw [decimalDigits]; split <;> simp

theorem decimalDigits_digit : ∀ (f n : Nat) (b : UInt8), b ∈ decimalDigits f n →
    48 ≤ b ∧ b ≤ 57
  | 0, _, b, h => by cases h
  | f + 1, n, b, h => by
    rw [decimalDigits] at h
    split at h
    · rename_i hn
      rcases List.mem_singleton.mp h with rfl
      exact ⟨(byte_digit hn).1, (byte_digit hn).2.1⟩
    · rcases List.mem_append.mp h with h | h
      · exact decimalDigits_digit f _ b h
      · rcases List.mem_singleton.mp h with rfl
        have := byte_digit (n := n % 10) (by omega)
        exact ⟨this.1, this.2.1⟩

theorem decimalDigits_length_le : ∀ (f n : Nat), (decimalDigits f n).length ≤ f
  | 0, _ => by simp [decimalDigits]
  | f + 1, n => by
    rw [decimalDigits]
    split
    · simp
    · have := decimalDigits_length_le f (n / 10)
      simp
      omega

theorem digitsValue_append : ∀ (f n : Nat) (rest : Bytes), n < 10 ^ f →
    digitsValue 0 (decimalDigits f n ++ rest) = digitsValue n rest
  | 0, n, rest, h => by
    have : n = 0 := by simpa using h
    subst this
    rfl
  | f + 1, n, rest, h => by
    rw [decimalDigits]
    split
    · rename_i hn
      have := byte_digit hn
      simp only [List.cons_append, List.nil_append]
      rw [digitsValue, if_pos ⟨this.1, this.2.1⟩, this.2.2]
      simp
    · have hd : n / 10 < 10 ^ f := by
        rw [Nat.pow_succ] at h
        omega
      rw [List.append_assoc, digitsValue_append f (n / 10) _ hd]
      have := byte_digit (n := n % 10) (by omega)
      simp only [List.cons_append, List.nil_append]
      rw [digitsValue, if_pos ⟨this.1, this.2.1⟩, this.2.2]
      congr 1
      omega

theorem digitsValue_decimal {f n : Nat} (h : n < 10 ^ f) :
    digitsValue 0 (decimalDigits f n) = some n := by
  have := digitsValue_append f n [] h
  simpa [digitsValue] using this

/-- A byte that is neither white space nor part of a longer character. -/
def Plain (a : UInt8) : Prop := 33 ≤ a ∧ a ≤ 126

theorem Plain.not_space {a : UInt8} (h : Plain a) : ¬ ((9 ≤ a ∧ a ≤ 13) ∨ a = 32) := by
  obtain ⟨h1, h2⟩ := h
  rw [UInt8.le_iff_toNat_le] at h1 h2
  rintro (⟨h3, h4⟩ | h3)
  · rw [UInt8.le_iff_toNat_le] at h3 h4
    have : (13 : UInt8).toNat = 13 := rfl
    have : (33 : UInt8).toNat = 33 := rfl
    omega
  · subst h3
    exact absurd h1 (by decide)

theorem leadingSpace_plain {a : UInt8} {r : Bytes} (h : Plain a) : leadingSpace (a :: r) = none := by
  have hns := h.not_space
  obtain ⟨h1, h2⟩ := h
  unfold leadingSpace
  split
  all_goals first
    | (rename_i heq; cases heq; exact absurd h2 (by decide))
    | skip
  · rename_i heq
    cases heq
    rw [if_neg hns]
  · rfl

theorem trailingSpace_plain {a : UInt8} {r : Bytes} (h : Plain a) :
    trailingSpace (a :: r) = none := by
  have hns := h.not_space
  obtain ⟨h1, h2⟩ := h
  have hb : ∀ c : UInt8, 127 ≤ c → a ≠ c := by
    rintro c hc rfl
    rw [UInt8.le_iff_toNat_le] at hc h2
    have : (126 : UInt8).toNat = 126 := rfl
    have : (127 : UInt8).toNat = 127 := rfl
    omega
  unfold trailingSpace
  split
  · rename_i heq
    cases heq
    rw [if_neg]
    rintro (h | h)
    · exact hb _ (by decide) h
    · exact hb _ (by decide) h
  · rename_i heq; cases heq; exact absurd h2 (by decide)
  · rename_i heq; cases heq; exact absurd h2 (by decide)
  · rename_i heq; cases heq; exact absurd h2 (by decide)
  · rename_i heq
    cases heq
    rw [if_neg]
    rintro (⟨h, _⟩ | h | h | h)
    · rw [UInt8.le_iff_toNat_le] at h h2
      have : (126 : UInt8).toNat = 126 := rfl
      have : (128 : UInt8).toNat = 128 := rfl
      omega
    · exact hb _ (by decide) h
    · exact hb _ (by decide) h
    · exact hb _ (by decide) h
  · rename_i heq
    cases heq
    rw [if_neg hns]
  · rfl

theorem stripWhile_none {f : Bytes → Option Bytes} {s : Bytes} (h : f s = none) (n : Nat) :
    stripWhile f n s = s := by
  cases n with
  | zero => rfl
  | succ n => rw [stripWhile, h]

theorem stripWhile_spaces (s : Bytes) (h : leadingSpace s = none) : ∀ (n m : Nat), n ≤ m →
    stripWhile leadingSpace m (List.replicate n 32 ++ s) = s
  | 0, m, _ => by simpa using stripWhile_none h m
  | n + 1, m, hm => by
    cases m with
    | zero => omega
    | succ m =>
      have : leadingSpace (List.replicate (n + 1) 32 ++ s) = some (List.replicate n 32 ++ s) := by
        rw [List.replicate_succ, List.cons_append]
        rfl
      rw [stripWhile, this]
      exact stripWhile_spaces s h n m (by omega)

/-- Trimming padded text gives the text back. -/
theorem trim_padLeft {s : Bytes} (hne : s ≠ []) (hp : ∀ b ∈ s, Plain b) (w : Nat) :
    trim (padLeft w s) = s := by
  have h1 : stripWhile leadingSpace (padLeft w s).length (padLeft w s) = s := by
    have hl : leadingSpace s = none := by
      cases s with
      | nil => exact absurd rfl hne
      | cons a r => exact leadingSpace_plain (hp a List.mem_cons_self)
    unfold padLeft
    exact stripWhile_spaces s hl _ _ (by simp)
  have h2 : trailingSpace s.reverse = none := by
    have : s.reverse ≠ [] := by simpa using hne
    cases hr : s.reverse with
    | nil => exact absurd hr this
    | cons a r =>
      exact trailingSpace_plain (hp a (by
        have : a ∈ s.reverse := by rw [hr]; exact List.mem_cons_self
        simpa using this))
  unfold trim
  simp only [h1]
  rw [stripWhile_none h2, List.reverse_reverse]

theorem formatI64_plain {n : Int} : ∀ b ∈ formatI64 n, Plain b := by
  have key : ∀ m (b : UInt8), b ∈ decimalDigits 20 m → Plain b := by
    intro m b hb
    obtain ⟨h1, h2⟩ := decimalDigits_digit _ _ _ hb
    rw [UInt8.le_iff_toNat_le] at h1 h2
    have : (48 : UInt8).toNat = 48 := rfl
    have : (57 : UInt8).toNat = 57 := rfl
    unfold Plain
    rw [UInt8.le_iff_toNat_le, UInt8.le_iff_toNat_le]
    have : (33 : UInt8).toNat = 33 := rfl
    have : (126 : UInt8).toNat = 126 := rfl
    omega
  intro b hb
  unfold formatI64 at hb
  split at hb
  · rcases List.mem_cons.mp hb with rfl | hb
    · exact ⟨by decide, by decide⟩
    · exact key _ _ hb
  · exact key _ _ hb

theorem formatI64_ne {n : Int} : formatI64 n ≠ [] := by
  unfold formatI64
  split
  · simp
  · exact decimalDigits_ne (by omega)

theorem formatI64_length {n : Int} : (formatI64 n).length ≤ 21 := by
  unfold formatI64
  split
  · have := decimalDigits_length_le 20 n.natAbs
    simp; omega
  · have := decimalDigits_length_le 20 n.natAbs
    omega

theorem padLeft_length (w : Nat) (s : Bytes) : (padLeft w s).length = max w s.length := by
  unfold padLeft
  simp
  omega

theorem signedValue_format {n : Int} (hb : n.natAbs < 10 ^ 20) :
    signedValue (formatI64 n) = some n := by
  have hv := digitsValue_decimal hb
  unfold formatI64
  split
  · have hne : (decimalDigits 20 n.natAbs).isEmpty = false := by
      cases hd : decimalDigits 20 n.natAbs with
      | nil => exact absurd hd (decimalDigits_ne (by omega))
      | cons a r => rfl
    simp only [signedValue, hne, hv, Bool.false_eq_true, if_false]
    show some (-(n.natAbs : Int)) = some n
    rw [show (-(n.natAbs : Int)) = n by omega]
  · generalize hd : decimalDigits 20 n.natAbs = d at hv ⊢
    have hmem : ∀ b ∈ d, 48 ≤ b ∧ b ≤ 57 := fun b hb => decimalDigits_digit _ _ b (hd ▸ hb)
    have hdn : d ≠ [] := hd ▸ decimalDigits_ne (by omega)
    unfold signedValue
    split
    · exact absurd rfl hdn
    · exact absurd (hmem _ List.mem_cons_self).1 (by decide)
    · exact absurd (hmem _ List.mem_cons_self).1 (by decide)
    · rw [hv]
      show some (n.natAbs : Int) = some n
      rw [show (n.natAbs : Int) = n by omega]

/-- Parsing inverts formatting on the whole range of `i64`. -/
theorem parseI64_format {n : Int} (h : -9223372036854775808 ≤ n ∧ n ≤ 9223372036854775807) :
    parseI64 (formatI64 n) = some n := by
  have hb : n.natAbs < 10 ^ 20 := by
    have : (10 : Nat) ^ 20 = 100000000000000000000 := by decide
    omega
  unfold parseI64
  rw [signedValue_format hb]
  simp only
  rw [if_pos h]

theorem parseI64_range {s : Bytes} {n : Int} (h : parseI64 s = some n) :
    -9223372036854775808 ≤ n ∧ n ≤ 9223372036854775807 := by
  unfold parseI64 at h
  split at h
  · split at h
    · cases h; assumption
    · cases h
  · cases h

theorem nextI64_range {n : Int} (h : -9223372036854775808 ≤ n ∧ n ≤ 9223372036854775807) :
    -9223372036854775808 ≤ nextI64 n ∧ nextI64 n ≤ 9223372036854775807 := by
  unfold nextI64
  split <;> omega

end Verif
