import Verif.Spec.JsSearch
import Verif.Lemmas.Js
import Verif.Props.C38

/-!
# Lemmas about searching
-/

namespace Verif

open Verif.Spec

theorem memcmp_byte {d : Bytes} {o : Nat} {b : UInt8} :
    memcmp d (o, [b]) = true ↔ o < d.length ∧ byteAt d o = b := by
  unfold memcmp slice byteAt
  simp only [List.length_singleton, beq_iff_eq]
  by_cases h : o < d.length
  · rw [List.drop_eq_getElem_cons h, List.take_succ_cons, List.take_zero]
    simp only [List.cons.injEq, and_true, h, true_and, List.getD_eq_getElem?_getD,
      List.getElem?_eq_getElem h, Option.getD_some]
  · rw [List.drop_eq_nil_of_le (by omega)]
    simp [h]

theorem memcmp_slice {d bs : Bytes} {o n : Nat} (hn : bs.length = n) :
    memcmp d (o, bs) = true ↔ slice d o n = bs := by
  unfold memcmp
  simp [hn]

theorem memcmp_key {d : Bytes} {o : Nat} {k : Key} (h : o + 32 ≤ d.length) :
    memcmp d (o, k.1) = true ↔ keyAt d o = k := by
  rw [memcmp_slice k.2]
  have hl : (slice d o 32).length = 32 := by
    unfold slice; rw [List.length_take, List.length_drop]; omega
  constructor
  · intro e; unfold keyAt; rw [e, ofBytes_key]
  · rintro rfl; unfold keyAt; rw [ofBytes_val hl]

theorem enableAll_bits (rs : List Role) : enableAll rs < 8 ∧
    (enableAll rs &&& 1 ≠ 0 ↔ .transfer ∈ rs) ∧ (enableAll rs &&& 2 ≠ 0 ↔ .lock ∈ rs) ∧
    (enableAll rs &&& 4 ≠ 0 ↔ .burn ∈ rs) := by
  have key : ∀ (l : List Role) (a : UInt8), a < 8 →
      let b := l.foldl (fun acc r => acc ||| r.mask) a
      b < 8 ∧ (b &&& 1 ≠ 0 ↔ a &&& 1 ≠ 0 ∨ .transfer ∈ l) ∧ (b &&& 2 ≠ 0 ↔ a &&& 2 ≠ 0 ∨ .lock ∈ l) ∧
        (b &&& 4 ≠ 0 ↔ a &&& 4 ≠ 0 ∨ .burn ∈ l) := by
    intro l
    induction l with
    | nil => intro a ha; simpa using ha
    | cons r l ih =>
      intro a ha
      have h1 : a ||| r.mask < 8 ∧
          ((a ||| r.mask) &&& 1 ≠ 0 ↔ a &&& 1 ≠ 0 ∨ r = .transfer) ∧
          ((a ||| r.mask) &&& 2 ≠ 0 ↔ a &&& 2 ≠ 0 ∨ r = .lock) ∧
          ((a ||| r.mask) &&& 4 ≠ 0 ↔ a &&& 4 ≠ 0 ∨ r = .burn) := by
        clear ih
        have hall : ∀ n : Fin 8, ∀ r ∈ [Role.none, .transfer, .lock, .burn],
            (UInt8.ofNat n.val) ||| r.mask < 8 ∧
            (((UInt8.ofNat n.val) ||| r.mask) &&& 1 ≠ 0 ↔ (UInt8.ofNat n.val) &&& 1 ≠ 0 ∨ r = .transfer) ∧
            (((UInt8.ofNat n.val) ||| r.mask) &&& 2 ≠ 0 ↔ (UInt8.ofNat n.val) &&& 2 ≠ 0 ∨ r = .lock) ∧
            (((UInt8.ofNat n.val) ||| r.mask) &&& 4 ≠ 0 ↔ (UInt8.ofNat n.val) &&& 4 ≠ 0 ∨ r = .burn) := by
          decide +kernel
        have h := hall ⟨a.toNat, by simpa [UInt8.lt_iff_toNat_lt] using ha⟩ r (by cases r <;> simp)
        simpa using h
      obtain ⟨h2, h3, h4, h5⟩ := ih (a ||| r.mask) h1.1
      simp only [List.foldl_cons]
      refine ⟨h2, ?_, ?_, ?_⟩
      · rw [h3, h1.2.1, List.mem_cons, or_assoc, @eq_comm _ r]
      · rw [h4, h1.2.2.1, List.mem_cons, or_assoc, @eq_comm _ r]
      · rw [h5, h1.2.2.2, List.mem_cons, or_assoc, @eq_comm _ r]
  obtain ⟨h1, h2, h3, h4⟩ := key rs 0 (by decide)
  refine ⟨h1, ?_, ?_, ?_⟩
  · exact h2.trans (by simp)
  · exact h3.trans (by simp)
  · exact h4.trans (by simp)

theorem same_bits {a b : UInt8} (ha : a < 8) (hb : b < 8) (h1 : a &&& 1 ≠ 0 ↔ b &&& 1 ≠ 0)
    (h2 : a &&& 2 ≠ 0 ↔ b &&& 2 ≠ 0) (h4 : a &&& 4 ≠ 0 ↔ b &&& 4 ≠ 0) : a = b := by
  have hall : ∀ n m : Fin 8,
      ((UInt8.ofNat n.val) &&& 1 ≠ 0 ↔ (UInt8.ofNat m.val) &&& 1 ≠ 0) →
      ((UInt8.ofNat n.val) &&& 2 ≠ 0 ↔ (UInt8.ofNat m.val) &&& 2 ≠ 0) →
      ((UInt8.ofNat n.val) &&& 4 ≠ 0 ↔ (UInt8.ofNat m.val) &&& 4 ≠ 0) →
      UInt8.ofNat n.val = UInt8.ofNat m.val := by decide +kernel
  have h := hall ⟨a.toNat, by simpa [UInt8.lt_iff_toNat_lt] using ha⟩
    ⟨b.toNat, by simpa [UInt8.lt_iff_toNat_lt] using hb⟩ (by simpa using h1) (by simpa using h2)
    (by simpa using h4)
  simpa using h

theorem jsEncodeRoles_none {rs : List Role} (h : Role.none ∈ rs) : jsEncodeRoles rs = none := by
  have key : ∀ (l : List Role) (a : UInt32),
      a.toNat ≤ (l.foldl (fun acc r => acc ||| jsBit r) a).toNat ∧
      ∀ r ∈ l, (jsBit r).toNat ≤ (l.foldl (fun acc r => acc ||| jsBit r) a).toNat := by
    intro l
    induction l with
    | nil => intro a; exact ⟨Nat.le_refl _, fun r h => by cases h⟩
    | cons r l ih =>
      intro a
      obtain ⟨h1, h2⟩ := ih (a ||| jsBit r)
      rw [UInt32.toNat_or] at h1
      refine ⟨Nat.le_trans Nat.left_le_or h1, fun r' hr => ?_⟩
      rcases List.mem_cons.mp hr with rfl | hr
      · exact Nat.le_trans Nat.right_le_or h1
      · exact h2 r' hr
  have h1 := (key rs 0).2 _ h
  unfold jsEncodeRoles
  simp only
  rw [if_neg]
  intro h2
  rw [UInt32.le_iff_toNat_le] at h2
  have e : (jsBit Role.none).toNat = 2147483648 := by decide +kernel
  rw [e] at h1
  have e2 : (255 : UInt32).toNat = 255 := rfl
  omega

theorem filter_askable {f : SearchField} : Askable f ↔ ∃ x, f.filter = .ok x := by
  cases f with
  | discriminator n => unfold Askable SearchField.filter jsPutScalar; by_cases h : 1 < n <;> simp [h, Except.map]; all_goals omega
  | state n => unfold Askable SearchField.filter jsPutScalar; by_cases h : 1 < n <;> simp [h, Except.map]; all_goals omega
  | standard n => unfold Askable SearchField.filter jsPutScalar; by_cases h : 3 < n <;> simp [h, Except.map]; all_goals omega
  | roles rs =>
    simp only [Askable, SearchField.filter]
    by_cases h : Role.none ∈ rs
    · rw [jsEncodeRoles_none h]; simp [h]
    · rw [Props.C38_js_encode h]; simp [h]
  | _ => simp [Askable, SearchField.filter]

/-- On an initialised account, the filter picks out the value of the field. -/
theorem filter_has {f : SearchField} {x : Nat × Bytes} {d : Bytes} {es : List Extn}
    (hx : f.filter = .ok x) (hl : 168 ≤ d.length) (hd : byteAt d 0 = 1) :
    memcmp d x = true ↔ Has (Asset.of (view d) es) f := by
  have scalar : ∀ {last n o : Nat} {x : Nat × Bytes}, last < 256 →
      (jsPutScalar last n).map (fun b => (o, b)) = .ok x → o < d.length →
      (memcmp d x = true ↔ (byteAt d o).toNat = n) := by
    intro last n o x hlast h ho
    unfold jsPutScalar at h
    split at h
    · cases h
    · cases h
      rw [memcmp_byte]
      constructor
      · rintro ⟨_, e⟩; rw [e]; simp; omega
      · intro e
        refine ⟨ho, ?_⟩
        rw [← e]; simp
  cases f with
  | discriminator n =>
    rw [scalar (by omega) hx (by omega), hd]
    show _ ↔ n = 1
    simp [eq_comm]
  | state n => rw [scalar (by omega) hx (by omega)]; rfl
  | standard n => rw [scalar (by omega) hx (by omega)]; rfl
  | isMutable b =>
    cases hx
    unfold jsPutBool
    rw [memcmp_byte]
    exact ⟨fun h => h.2, fun h => ⟨by omega, h⟩⟩
  | owner k => cases hx; rw [memcmp_key (by omega)]; rfl
  | group o => cases hx; rw [memcmp_key (by omega)]; cases o <;> rfl
  | authority k => cases hx; rw [memcmp_key (by omega)]; rfl
  | delegate o => cases hx; rw [memcmp_key (by omega)]; cases o <;> rfl
  | roles rs =>
    have ha : Role.none ∉ rs := filter_askable.mpr ⟨x, hx⟩
    simp only [SearchField.filter] at hx
    rw [Props.C38_js_encode ha] at hx
    cases hx
    rw [memcmp_byte]
    obtain ⟨b0, b1, b2, b4⟩ := enableAll_bits rs
    show _ ↔ byteAt d 132 < 8 ∧ _
    constructor
    · rintro ⟨_, e⟩
      rw [e]
      refine ⟨b0, ?_⟩
      show (byteAt d 132 &&& 1 ≠ 0 ↔ _) ∧ (byteAt d 132 &&& 2 ≠ 0 ↔ _) ∧ (byteAt d 132 &&& 4 ≠ 0 ↔ _)
      rw [e]
      exact ⟨b1, b2, b4⟩
    · rintro ⟨c0, c1, c2, c4⟩
      exact ⟨by omega, same_bits c0 b0 (c1.trans b1.symm) (c2.trans b2.symm) (c4.trans b4.symm)⟩
  | name s =>
    cases hx
    rw [memcmp_slice (n := 35) (by unfold jsPutFixed; simp [zeros])]
    rfl

end Verif
