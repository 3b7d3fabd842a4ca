import Verif.Spec.JsTyped
import Verif.Lemmas.Inline
import Verif.Lemmas.JsWrites

/-!
# Extensions in one instruction
-/

namespace Verif

open Verif.Spec

theorem swapRemoveOrder_reverse {α : Type} (n : Nat) (x : α) (xs : List α) (h : xs.length < n) :
    swapRemoveOrder n (x :: xs) = x :: xs.reverse := by
  induction n generalizing x xs with
  | zero => omega
  | succ n ih =>
    rw [swapRemoveOrder]
    cases hxs : xs.getLast? with
    | none =>
      rw [List.getLast?_eq_none_iff] at hxs
      rw [hxs]
      rfl
    | some y =>
      obtain ⟨ys, rfl⟩ := List.getLast?_eq_some_iff.mp hxs
      rw [List.length_append, List.length_singleton] at h
      simp only
      rw [ih y _ (by rw [List.dropLast_concat]; omega), List.dropLast_concat, List.reverse_append]
      rfl

theorem createOrder_eq (xs : List ExtInput) : createOrder xs = createdOrder xs := by
  cases xs with
  | nil => rfl
  | cons x xs => exact swapRemoveOrder_reverse _ x xs (by simp)

theorem createdOrder_map {α β : Type} (f : α → β) (xs : List α) :
    (createdOrder xs).map f = createdOrder (xs.map f) := by
  cases xs with
  | nil => rfl
  | cons x xs => simp [createdOrder]

theorem createdOrder_perm {α : Type} (xs : List α) : (createdOrder xs).Perm xs := by
  cases xs with
  | nil => exact .refl _
  | cons x xs => exact (List.reverse_perm xs).cons x

theorem jsTyped_ok {v : JsExt} {y : JsExtInput} :
    jsTyped v = .ok y ↔ Writable v ∧ y = ⟨v.type, (rustWrites v).length, some (rustWrites v)⟩ := by
  unfold jsTyped
  simp only [bind_ok, pure_ok, jsWriteExt_ok]
  constructor
  · rintro ⟨_, ⟨h, rfl⟩, rfl⟩; exact ⟨h, rfl⟩
  · rintro ⟨h, rfl⟩; exact ⟨_, ⟨h, rfl⟩, rfl⟩

/-- The input made from a value. -/
def typedInput (v : JsExt) : JsExtInput := ⟨v.type, (rustWrites v).length, some (rustWrites v)⟩

theorem jsTypedAll_ok {vs : List JsExt} {ys : List JsExtInput} :
    jsTypedAll vs = .ok ys ↔ (∀ v ∈ vs, Writable v) ∧ ys = vs.map typedInput := by
  induction vs generalizing ys with
  | nil =>
    simp only [jsTypedAll, List.map_nil]
    constructor
    · rintro ⟨⟩; exact ⟨by simp, rfl⟩
    · rintro ⟨_, rfl⟩; rfl
  | cons v vs ih =>
    simp only [jsTypedAll, bind_ok, pure_ok, jsTyped_ok, ih, List.map_cons, List.forall_mem_cons]
    constructor
    · rintro ⟨_, ⟨h, rfl⟩, _, ⟨h2, rfl⟩, rfl⟩; exact ⟨⟨h, h2⟩, rfl⟩
    · rintro ⟨⟨h, h2⟩, rfl⟩; exact ⟨_, ⟨h, rfl⟩, _, ⟨h2, rfl⟩, rfl⟩

theorem jsTypedOption_ok {α β : Type} {f : α → Except Err β} {o : Option α} {r : Option β} :
    jsTypedOption f o = .ok r ↔ (o = none ∧ r = none) ∨ ∃ v y, o = some v ∧ f v = .ok y ∧ r = some y := by
  cases o with
  | none =>
    simp only [jsTypedOption]
    constructor
    · intro h; cases h; exact .inl ⟨trivial, rfl⟩
    · rintro (⟨_, rfl⟩ | ⟨_, _, h, _⟩)
      · rfl
      · cases h
  | some v =>
    simp only [jsTypedOption, bind_ok, pure_ok]
    constructor
    · rintro ⟨y, h, rfl⟩; exact .inr ⟨v, y, rfl, h, rfl⟩
    · rintro (⟨h, _⟩ | ⟨_, y, h, h2, rfl⟩)
      · cases h
      · cases h; exact ⟨y, h2, rfl⟩

theorem mem_le_sum {xs : List Nat} {n : Nat} (h : n ∈ xs) : n ≤ xs.sum := by
  induction xs with
  | nil => cases h
  | cons x xs ih =>
    rw [List.sum_cons]
    rcases List.mem_cons.mp h with rfl | h
    · omega
    · have := ih h
      omega

/-- The extensions of a Create of an unused account are short. -/
theorem create_short {E : Env} {L L' : Ledger} {a : Key} {accts : List Key} {x : CreateInput}
    (h : execute E L (a :: accts) (.create x) = .ok L') (hd : (L a).data = []) :
    ∀ y ∈ asked x, y.length.toNat ≤ 10240 := by
  obtain ⟨a', au, o, g, ga, p, s, rest, L2, es0, es2, e2, hsig, _, ⟨L1, h1, h2⟩, -⟩ := create_result h
  obtain rfl : a = a' := by injection e2
  intro y hy
  unfold createPrepare at h1
  simp only at h1
  rw [if_pos hd] at h1
  have hb := createAccount_bound h1
  have e4 : maxIncrease = 10240 := rfl
  have e5 : extLen = 16 := rfl
  unfold asked at hy
  cases hx : x.extensions with
  | none => rw [hx] at hy; cases hy
  | some xs =>
    rw [hx] at hy hb
    simp only [Option.getD_some] at hy hb
    have := mem_le_sum (List.mem_map_of_mem (f := fun e : ExtInput => align8 (e.length.toNat + extLen)) hy)
    have h8 : y.length.toNat + extLen ≤ align8 (y.length.toNat + extLen) := le_roundUp8 _
    omega

/-- An account created with all extensions in the instruction ends with its last extension. -/
theorem create_tight {E : Env} {L L' : Ledger} {a : Key} {accts : List Key} {x : CreateInput}
    (h : execute E L (a :: accts) (.create x) = .ok L') (hl : ∀ k, E.origLen k = (L k).data.length)
    (hd : (L a).data = []) (hx : Sane (asked x)) :
    (L' a).data.length = packedEnd 168 ((createOrder (asked x)).map asExtn) := by
  obtain ⟨a', au, o, g, ga, p, s, rest, es1, e1, _, _, hst, hborn, hlen, hnd, -⟩ :=
    create_stores h hl (es := []) (by rintro a ⟨⟩; exact Or.inl ⟨hd, rfl⟩)
      (by rintro a ⟨⟩; rw [hd]; simp) hx
  rw [List.nil_append] at hborn
  obtain ⟨a', au, o, g, ga, p, s, rest, L2, es0, es2, e2, hsig, _, ⟨L1, h1, h2⟩, _, hle, -⟩ :=
    create_result h
  obtain rfl : a = a' := by injection e2
  have hperm := createOrder_perm (asked x)
  rw [createPrepare_empty hd hlen] at h1
  obtain ⟨_, c1, c2, -⟩ := createAccount_eff h1
  have hpe : packedEnd 168 ((createOrder (asked x)).map asExtn) =
    packedEnd 168 ((asked x).map asExtn) := packedEnd_perm (hperm.map _)
  have hge := le_packedEnd 168 ((asked x).map asExtn)
  have hb := createAccount_bound h1
  have e4 : maxIncrease = 10240 := rfl
  have hty : es1.map (·.1) = ((createOrder (asked x)).map asExtn).map (·.1) := by
    clear hst hnd hle h2
    generalize (createOrder (asked x)).map asExtn = xs at hborn
    induction hborn with
    | nil => rfl
    | cons h _ ih => rw [List.map_cons, List.map_cons, ih, h.1]
  obtain ⟨L3, d', a1, a2, a3, a4, -⟩ := allocateAll_room (E := E) (L := L1) (k := a) (es := [])
    (payer := optAcc E p) (sys := optAcc E s) (xs := createOrder (asked x)) hsig c2
    (by rw [c1]; exact complete_zeros (by omega))
    (by rw [c1, length_zeros]; omega)
    (fun y hy => ⟨(hx y (hperm.mem_iff.mp hy)).1, (hx y (hperm.mem_iff.mp hy)).2,
      hlen y (hperm.mem_iff.mp hy)⟩)
    (by rw [List.nil_append, ← hty]; exact hnd (by simp))
    (by rw [List.nil_append, hpe, c1, length_zeros]; exact Nat.le_refl _)
  obtain rfl : L2 = L3 := Except.ok.inj (h2.symm.trans a1)
  rw [hle, a2, a4, c1, length_zeros, hpe]

end Verif
