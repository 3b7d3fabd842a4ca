import Verif.Lemmas.ProxyCreate
import Verif.Lemmas.Edits
import Verif.Lemmas.Loss

/-!
# Transfers through the proxy program
-/

namespace Verif

open Spec

section
variable {E : Env} {L L' : Ledger} {k s g p y : Key} {A : Asset} {rest : List Key}

/-- An update that keeps the length of an extension keeps the length of the account, and touches no
other account. -/
theorem update_same {x : UpdateInput} {e : ExtInput} {old : Bytes} (hs : Stores E.program L k A)
    (h : execute E L (k :: s :: E.program :: g :: p :: y :: rest) (.update x) = .ok L')
    (hx : x.extension = some e) (ht : e.ty ≠ .none) (ho : lookup e.ty A.exts = some old)
    (hl : old.length = e.length.toNat) :
    (L' k).data.length = (L k).data.length ∧ ∀ z, z ≠ k → L' z = L z := by
  obtain ⟨a, au, b, g', p', y', rest', he, hp⟩ := exec_update h
  cases he
  rw [show optAcc E E.program = none from if_pos rfl] at hp
  unfold processUpdate at hp
  inv at hp
  obtain ⟨_, _, _, _, _, hp⟩ := hp
  rw [hx] at hp
  simp only at hp
  have hst := stores_updateHeader hs x
  have hlen : (updateHeader (L k).data x).length = (L k).data.length :=
    length_updateHeader x hs.1.2.1
  obtain ⟨_, _, _, en, h6, h7⟩ := id hst
  unfold updateArgs at hp
  inv at hp
  obtain ⟨⟨off, cur⟩, hf, pl, _, h1, h2, hp⟩ := hp
  rcases updateFind_packed h6 (Or.inr h7) ht hf with ⟨_, _, hn, _⟩ |
      ⟨pre, q, post, _, _, hq, _, _, rfl⟩
  · rw [show lookup e.ty (A.retitled x).exts = lookup e.ty A.exts from rfl, ho] at hn
    cases hn
  · rw [show lookup e.ty (A.retitled x).exts = lookup e.ty A.exts from rfl, ho] at hq
    cases hq
    have hsame : old.length = pl.length := by omega
    unfold updateFinish at hp
    inv at hp
    obtain ⟨L1, g1, d1, g2, d2, g3, d3, g4, rfl⟩ := hp
    unfold updateMove at g1
    simp only at g1
    rw [if_pos hsame] at g1
    cases g1
    have l2 := writeHdr_length g2
    have l3 := fixBoundaries_length g3
    have l4 := copyData_length g4
    rw [Ledger.setData_same] at l2
    simp only at l2
    refine ⟨?_, fun z hz => ?_⟩
    · rw [Ledger.setData_same]
      simp only
      omega
    · rw [Ledger.setData_other _ _ hz, Ledger.setData_other _ _ hz]

/-- A transfer keeps the length of the account, and touches no other account. -/
theorem transfer_same {r : Key} (h : execute E L (k :: s :: r :: rest) .transfer = .ok L') :
    (L' k).data.length = (L k).data.length ∧ (∀ z, z ≠ k → L' z = L z) ∧
      (keyAt (L k).data 4 = r → L' = L) := by
  obtain ⟨a, b, r, g, rest', he, hp⟩ := exec_transfer h
  cases he
  unfold processTransfer at hp
  inv at hp
  obtain ⟨_, _, hi, _, _, _, _, _, _, hp⟩ := hp
  split at hp
  · cases hp
    exact ⟨rfl, fun _ _ => rfl, fun _ => rfl⟩
  · rename_i hne
    inv at hp
    obtain ⟨_, rfl⟩ := hp
    refine ⟨?_, fun z hz => Ledger.setData_other _ _ hz, fun h => absurd h hne⟩
    rw [Ledger.setData_same]
    simp only
    have h168 : 168 ≤ (L k).data.length := hi.1
    rw [length_setDelegate (by rw [length_setOwner h168]; exact h168), length_setOwner h168]

end

theorem decimalDigits_length : ∀ (f n m : Nat), 1 ≤ m → n < 10 ^ m → (decimalDigits f n).length ≤ m
  | 0, _, _, _, _ => by simp [decimalDigits]
  | f + 1, n, m, hm, h => by
    unfold decimalDigits
    split
    · simp; omega
    · rename_i hn
      obtain ⟨m, rfl⟩ : ∃ j, m = j + 1 := ⟨m - 1, by omega⟩
      have hm1 : 1 ≤ m := by
        rcases Nat.eq_zero_or_pos m with rfl | h'
        · simp at h; omega
        · exact h'
      have := decimalDigits_length f (n / 10) m hm1 (by
        rw [Nat.pow_succ] at h
        omega)
      simp only [List.length_append, List.length_cons, List.length_nil]
      omega

/-- The text of a counter up to twelve digits. -/
theorem count_length {n : Nat} (h : n < 1000000000000) : (padLeft 12 (formatI64 n)).length = 12 := by
  rw [padLeft_length]
  unfold formatI64
  rw [if_neg (by omega)]
  have := decimalDigits_length 20 (n : Int).natAbs 12 (by omega) (by simpa using h)
  omega

theorem rgbText_length (b : Bytes) : (rgbText b).length = 11 := by
  have h : ∀ n : UInt8, (padLeft 3 (decimalDigits 3 n.toNat)).length = 3 := by
    intro n
    rw [padLeft_length]
    have := decimalDigits_length 3 n.toNat 3 (by omega) (by have := n.toNat_lt; omega)
    omega
  unfold rgbText
  simp only [List.length_append, h, List.length_cons, List.length_nil]

end Verif
