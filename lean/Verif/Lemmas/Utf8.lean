import Verif.Model.Borsh

/-!
# Text

The tests on bytes in `validUtf8` accept exactly the encodings of characters.
-/

namespace Verif

theorem byte_le {a b : UInt8} : a ≤ b ↔ a.toNat ≤ b.toNat := UInt8.le_iff_toNat_le

theorem byte_eq {a b : UInt8} : a = b ↔ a.toNat = b.toNat := UInt8.toNat_inj.symm

theorem byte_ofNat {n : Nat} (h : n < 256) : (UInt8.ofNat n).toNat = n := by
  simp only [UInt8.toNat_ofNat']; omega

/-- A character with a given number. -/
def scalar (n : Nat) (h : n < 0xD800 ∨ 0xDFFF < n ∧ n < 0x110000) : Char := Char.ofNatAux n h

theorem scalar_val (n : Nat) (h) : (scalar n h).val.toNat = n := by
  unfold scalar Char.ofNatAux
  rfl

theorem validUtf8_encode (c : Char) (r : Bytes) :
    validUtf8 (String.utf8EncodeChar c ++ r) = validUtf8 r := by
  have hv : c.val.toNat < 0xD800 ∨ 0xDFFF < c.val.toNat ∧ c.val.toNat < 0x110000 := c.valid
  unfold String.utf8EncodeChar
  generalize c.val.toNat = v at hv
  simp only
  split
  · rename_i h
    simp only [List.cons_append, List.nil_append]
    rw [validUtf8.eq_def]
    simp only
    rw [if_pos (by rw [byte_le, byte_ofNat (by omega)]; simpa using h)]
  · rename_i h
    split
    · rename_i h2
      simp only [List.cons_append, List.nil_append]
      have ha := byte_ofNat (n := v / 64 % 32 + 192) (by omega)
      have hb := byte_ofNat (n := v % 64 + 128) (by omega)
      generalize UInt8.ofNat (v / 64 % 32 + 192) = a at ha
      generalize UInt8.ofNat (v % 64 + 128) = b at hb
      rw [validUtf8.eq_def]
      simp only
      rw [if_neg (by rw [byte_le]; simp; omega)]
      rw [if_pos (by simp [isCont, byte_le]; omega)]
    · rename_i h2
      split
      · rename_i h3
        simp only [List.cons_append, List.nil_append]
        have ha := byte_ofNat (n := v / 4096 % 16 + 224) (by omega)
        have hb := byte_ofNat (n := v / 64 % 64 + 128) (by omega)
        have hc := byte_ofNat (n := v % 64 + 128) (by omega)
        generalize UInt8.ofNat (v / 4096 % 16 + 224) = a at ha
        generalize UInt8.ofNat (v / 64 % 64 + 128) = b at hb
        generalize UInt8.ofNat (v % 64 + 128) = c at hc
        rw [validUtf8.eq_def]
        simp only
        rw [if_neg (by rw [byte_le]; simp; omega)]
        rw [if_neg (by simp [isCont, byte_le]; omega)]
        rw [if_pos (by simp [isCont, byte_le, byte_eq]; omega)]
      · simp only [List.cons_append, List.nil_append]
        have ha := byte_ofNat (n := v / 262144 % 8 + 240) (by omega)
        have hb := byte_ofNat (n := v / 4096 % 64 + 128) (by omega)
        have hc := byte_ofNat (n := v / 64 % 64 + 128) (by omega)
        have hd := byte_ofNat (n := v % 64 + 128) (by omega)
        generalize UInt8.ofNat (v / 262144 % 8 + 240) = a at ha
        generalize UInt8.ofNat (v / 4096 % 64 + 128) = b at hb
        generalize UInt8.ofNat (v / 64 % 64 + 128) = c at hc
        generalize UInt8.ofNat (v % 64 + 128) = d at hd
        rw [validUtf8.eq_def]
        simp only
        rw [if_neg (by rw [byte_le]; simp; omega)]
        rw [if_neg (by simp [isCont, byte_le]; omega)]
        rw [if_neg (by simp [isCont, byte_le, byte_eq]; omega)]
        rw [if_pos (by simp [isCont, byte_le, byte_eq]; omega)]

theorem encode_one {a : UInt8} (h : a.toNat ≤ 0x7F) :
    ∃ c, String.utf8EncodeChar c = [a] := by
  refine ⟨scalar a.toNat (by omega), ?_⟩
  unfold String.utf8EncodeChar
  rw [scalar_val]
  simp only
  rw [if_pos h]
  simp

theorem encode_two {a b : UInt8} (ha : 0xC2 ≤ a.toNat ∧ a.toNat ≤ 0xDF)
    (hb : 0x80 ≤ b.toNat ∧ b.toNat ≤ 0xBF) : ∃ c, String.utf8EncodeChar c = [a, b] := by
  refine ⟨scalar ((a.toNat - 192) * 64 + (b.toNat - 128)) (by omega), ?_⟩
  unfold String.utf8EncodeChar
  rw [scalar_val]
  simp only
  rw [if_neg (by omega), if_pos (by omega)]
  simp only [List.cons.injEq, and_true, byte_eq]
  rw [byte_ofNat (by omega), byte_ofNat (by omega)]
  omega

theorem encode_three {a b c : UInt8} (ha : 0xE0 ≤ a.toNat ∧ a.toNat ≤ 0xEF)
    (hb : 0x80 ≤ b.toNat ∧ b.toNat ≤ 0xBF) (hc : 0x80 ≤ c.toNat ∧ c.toNat ≤ 0xBF)
    (h0 : a.toNat = 0xE0 → 0xA0 ≤ b.toNat) (h1 : a.toNat = 0xED → b.toNat ≤ 0x9F) :
    ∃ x, String.utf8EncodeChar x = [a, b, c] := by
  refine ⟨scalar ((a.toNat - 224) * 4096 + (b.toNat - 128) * 64 + (c.toNat - 128)) (by omega), ?_⟩
  unfold String.utf8EncodeChar
  rw [scalar_val]
  simp only
  rw [if_neg (by omega), if_neg (by omega), if_pos (by omega)]
  simp only [List.cons.injEq, and_true, byte_eq]
  rw [byte_ofNat (by omega), byte_ofNat (by omega), byte_ofNat (by omega)]
  omega

theorem encode_four {a b c d : UInt8} (ha : 0xF0 ≤ a.toNat ∧ a.toNat ≤ 0xF4)
    (hb : 0x80 ≤ b.toNat ∧ b.toNat ≤ 0xBF) (hc : 0x80 ≤ c.toNat ∧ c.toNat ≤ 0xBF)
    (hd : 0x80 ≤ d.toNat ∧ d.toNat ≤ 0xBF)
    (h0 : a.toNat = 0xF0 → 0x90 ≤ b.toNat) (h1 : a.toNat = 0xF4 → b.toNat ≤ 0x8F) :
    ∃ x, String.utf8EncodeChar x = [a, b, c, d] := by
  refine ⟨scalar ((a.toNat - 240) * 262144 + (b.toNat - 128) * 4096 + (c.toNat - 128) * 64 +
    (d.toNat - 128)) (by omega), ?_⟩
  unfold String.utf8EncodeChar
  rw [scalar_val]
  simp only
  rw [if_neg (by omega), if_neg (by omega), if_neg (by omega)]
  simp only [List.cons.injEq, and_true, byte_eq]
  rw [byte_ofNat (by omega), byte_ofNat (by omega), byte_ofNat (by omega), byte_ofNat (by omega)]
  omega

/-- Bytes are valid text exactly if they are the encoding of a list of characters. -/
theorem validUtf8_iff (bs : Bytes) :
    validUtf8 bs = true ↔ ∃ cs : List Char, bs = cs.flatMap String.utf8EncodeChar := by
  constructor
  · intro h
    induction hn : bs.length using Nat.strongRecOn generalizing bs with
    | ind n ih =>
      subst hn
      have next : ∀ {p r : Bytes}, p ≠ [] → (∃ c, String.utf8EncodeChar c = p) →
          validUtf8 r = true → bs = p ++ r →
          ∃ cs : List Char, bs = cs.flatMap String.utf8EncodeChar := by
        rintro p r hp ⟨c, hc⟩ hr rfl
        have : p.length ≠ 0 := by simpa using hp
        obtain ⟨cs, rfl⟩ := ih r.length (by simp only [List.length_append]; omega) r hr rfl
        exact ⟨c :: cs, by rw [List.flatMap_cons, hc]⟩
      unfold validUtf8 at h
      split at h
      · exact ⟨[], rfl⟩
      · rename_i a r
        split at h
        · rename_i h1
          rw [byte_le] at h1
          exact next (by simp) (encode_one h1) h rfl
        · split at h
          · cases h
          · rename_i b r
            split at h
            · rename_i h1
              simp only [isCont, Bool.and_eq_true, decide_eq_true_eq, byte_le] at h1
              exact next (p := [a, b]) (by simp) (encode_two h1.1 h1.2) h rfl
            · split at h
              · cases h
              · rename_i c r
                split at h
                · rename_i h1
                  simp [isCont, byte_le, byte_eq] at h1
                  exact next (p := [a, b, c]) (by simp) (encode_three (by omega) (by omega)
                    (by omega) (by omega) (by omega)) h rfl
                · split at h
                  · cases h
                  · rename_i d r
                    split at h
                    · rename_i h1
                      simp [isCont, byte_le, byte_eq] at h1
                      exact next (p := [a, b, c, d]) (by simp) (encode_four (by omega) (by omega)
                        (by omega) (by omega) (by omega) (by omega)) h rfl
                    · cases h
  · rintro ⟨cs, rfl⟩
    induction cs with
    | nil => rfl
    | cons c cs ih => rw [List.flatMap_cons, validUtf8_encode, ih]

end Verif
