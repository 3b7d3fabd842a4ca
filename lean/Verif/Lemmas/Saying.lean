import Verif.Spec.Saying
import Verif.Lemmas.Constraint

/-!
# The grammar of constraints and its parser
-/

namespace Verif

open Verif.Spec

theorem operator_eq (n : Nat) (b : Bytes) : operator n b = opBytes n b := by
  unfold operator opBytes; rw [List.append_assoc]

theorem length_operator (n : Nat) (b : Bytes) : (operator n b).length = 8 + b.length := by
  rw [operator_eq, length_opBytes]

theorem keyBody_eq (a : Nat) (ks : List Key) : toLE 8 a ++ keyBytes ks = keyBody a ks := rfl

/-! ## What is said is read -/

mutual
theorem reads_meaning {b : Bytes} {c : Cst} (h : Meaning b c) (fuel : Nat) (rest : Bytes)
    (hf : b.length ≤ fuel) : parseC fuel (b ++ rest) = .ok (c, b.length) := by
  match h with
  | .and (body := body) hl h =>
    rw [length_operator] at *
    obtain ⟨n, rfl⟩ : ∃ n, fuel = n + 1 := ⟨fuel - 1, by omega⟩
    rw [operator_eq, parseC_op _ _ _ _ (by omega) hl]
    simp only [if_true]
    rw [reads_meanings h n (by omega)]
    rfl
  | .or (body := body) hl h =>
    rw [length_operator] at *
    obtain ⟨n, rfl⟩ : ∃ n, fuel = n + 1 := ⟨fuel - 1, by omega⟩
    rw [operator_eq, parseC_op _ _ _ _ (by omega) hl]
    simp only [Nat.reduceEqDiff, if_false, if_true]
    rw [reads_meanings h n (by omega)]
    rfl
  | .not (b := b) (rest := r) hl h =>
    rw [length_operator] at *
    obtain ⟨n, rfl⟩ : ∃ n, fuel = n + 1 := ⟨fuel - 1, by omega⟩
    rw [operator_eq, parseC_op _ _ _ _ (by omega) hl]
    rw [List.length_append] at hf
    rw [reads_meaning h n r (by omega)]
    rfl
  | .ownedBy (a := a) (ks := ks) hl ha =>
    rw [length_operator] at *
    obtain ⟨n, rfl⟩ : ∃ n, fuel = n + 1 := ⟨fuel - 1, by omega⟩
    rw [operator_eq, parseC_op _ _ _ _ (by omega) hl, keyBody_eq, parseKeys_keyBody a ks ha]
    rfl
  | .pubkeyMatch (a := a) (ks := ks) hl ha =>
    rw [length_operator] at *
    obtain ⟨n, rfl⟩ : ∃ n, fuel = n + 1 := ⟨fuel - 1, by omega⟩
    rw [operator_eq, parseC_op _ _ _ _ (by omega) hl, keyBody_eq, parseKeys_keyBody a ks ha]
    rfl
  | .empty hl =>
    rw [length_operator] at *
    obtain ⟨n, rfl⟩ : ∃ n, fuel = n + 1 := ⟨fuel - 1, by omega⟩
    rw [operator_eq, parseC_op _ _ _ _ (by omega) hl]
    rfl

theorem reads_meanings {b : Bytes} {cs : List Cst} (h : Meanings b cs) (fuel : Nat)
    (hf : b.length + 1 ≤ fuel) : parseL fuel b = .ok cs := by
  obtain ⟨n, rfl⟩ : ∃ n, fuel = n + 1 := ⟨fuel - 1, by omega⟩
  match h with
  | .nil => rw [parseL]; rfl
  | .cons (b := x) (bs := bs) h hs =>
    have h8 : 8 ≤ x.length := by cases h <;> rw [length_operator] <;> omega
    rw [List.length_append] at hf
    rw [parseL, if_neg (by
      simp only [List.isEmpty_iff]; intro h
      have := congrArg List.length h
      rw [List.length_append, List.length_nil] at this; omega)]
    rw [reads_meaning h n _ (by omega)]
    simp only [bind, Except.bind]
    rw [List.drop_left' rfl, reads_meanings hs n (by omega)]
    rfl
end

/-! ## What is read is said -/

theorem keysFrom_bytes (n : Nat) (b : Bytes) (h : b.length = 32 * n) : keyBytes (keysFrom n b) = b := by
  induction n generalizing b with
  | zero =>
    have : b = [] := List.eq_nil_of_length_eq_zero (by omega)
    rw [this]; rfl
  | succ n ih =>
    rw [keysFrom]
    unfold keyBytes
    rw [List.flatMap_cons]
    have := ih (b.drop 32) (by rw [List.length_drop]; omega)
    unfold keyBytes at this
    rw [this]
    have h2 : (Key.ofBytes (b.take 32)).1 = b.take 32 := by
      show (b.take 32 ++ zeros 32).take 32 = b.take 32
      exact List.take_left' (by rw [List.length_take]; omega)
    rw [h2, List.take_append_drop]

theorem parseKeys_bytes {b : Bytes} {a : Nat} {ks : List Key} (h : parseKeys b = .ok (a, ks)) :
    b = toLE 8 a ++ keyBytes ks ∧ a < 2 ^ 64 := by
  unfold parseKeys at h
  split at h
  · cases h
  · split at h
    · cases h
    · rename_i h1 h2
      cases h
      have h8 : (slice b 0 8).length = 8 := length_slice (by omega)
      have hlt := leNat_lt (slice b 0 8)
      rw [h8] at hlt
      refine ⟨?_, by unfold u64At; omega⟩
      rw [keysFrom_bytes _ _ (by rw [List.length_drop]; omega)]
      have h3 : toLE 8 (u64At b 0) = slice b 0 8 := by
        have := toLE_leNat (slice b 0 8)
        rw [h8] at this
        exact this
      rw [h3]
      exact (List.take_append_drop 8 b).symm

theorem split_operator {b : Bytes} (h8 : 8 ≤ b.length) (hs : u32At b 4 ≤ b.length - 8) :
    b = operator (u32At b 0) ((b.drop 8).take (u32At b 4)) ++ b.drop (8 + u32At b 4) ∧
    ((b.drop 8).take (u32At b 4)).length = u32At b 4 ∧ u32At b 4 < 2 ^ 32 := by
  have hl : ((b.drop 8).take (u32At b 4)).length = u32At b 4 := by
    rw [List.length_take, List.length_drop]; omega
  have h4 : ∀ o, o + 4 ≤ b.length → toLE 4 (u32At b o) = slice b o 4 := by
    intro o ho
    have := toLE_leNat (slice b o 4)
    rw [length_slice ho] at this
    exact this
  refine ⟨?_, hl, ?_⟩
  · unfold operator
    rw [hl, h4 0 (by omega), h4 4 (by omega)]
    have e1 : b = slice b 0 4 ++ b.drop 4 := (List.take_append_drop 4 b).symm
    have e2 : b.drop 4 = slice b 4 4 ++ b.drop 8 := by
      have := (List.take_append_drop 4 (b.drop 4)).symm
      rwa [List.drop_drop] at this
    have e3 : b.drop 8 = (b.drop 8).take (u32At b 4) ++ b.drop (8 + u32At b 4) := by
      have := (List.take_append_drop (u32At b 4) (b.drop 8)).symm
      rwa [List.drop_drop] at this
    conv => lhs; rw [e1, e2, e3]
    simp only [List.append_assoc]
  · have := leNat_lt (slice b 4 4)
    rw [length_slice (by omega)] at this
    exact this

theorem says_read (fuel : Nat) :
    (∀ b c n, parseC fuel b = .ok (c, n) → ∃ x rest, b = x ++ rest ∧ x.length = n ∧ Meaning x c) ∧
    ∀ b cs, parseL fuel b = .ok cs → Meanings b cs := by
  induction fuel with
  | zero => exact ⟨fun _ _ _ h => by simp [parseC] at h, fun _ _ h => by simp [parseL] at h⟩
  | succ fuel ih =>
    obtain ⟨ihC, ihL⟩ := ih
    refine ⟨fun b c n h => ?_, fun b cs h => ?_⟩
    · rw [parseC] at h
      split at h
      · cases h
      simp only at h
      split at h
      · cases h
      split at h
      · cases h
      rename_i h1 h2 h3
      obtain ⟨e1, e2, e3⟩ := split_operator (b := b) (by omega) (by omega)
      generalize hbody : (b.drop 8).take (u32At b 4) = body at *
      generalize hty : u32At b 0 = ty at *
      have key : ∀ {c' : Cst}, Meaning (operator ty body) c' → (c', 8 + u32At b 4) = (c, n) →
          ∃ x rest, b = x ++ rest ∧ x.length = n ∧ Meaning x c := by
        intro c' hm hc
        cases hc
        exact ⟨_, _, e1, by rw [length_operator, e2], hm⟩
      split at h
      · rename_i ht; subst ht
        inv at h
        obtain ⟨cs, hcs, h⟩ := h
        exact key (.and (by omega) (ihL _ _ hcs)) h
      split at h
      · rename_i ht; subst ht
        inv at h
        obtain ⟨r, hr, h⟩ := h
        obtain ⟨c1, n1⟩ := r
        obtain ⟨x, rest, rfl, _, hm⟩ := ihC _ _ _ hr
        exact key (.not (by omega) hm) h
      split at h
      · rename_i ht; subst ht
        inv at h
        obtain ⟨cs, hcs, h⟩ := h
        exact key (.or (by omega) (ihL _ _ hcs)) h
      split at h
      · rename_i ht; subst ht
        inv at h
        obtain ⟨⟨a, ks⟩, hk, h⟩ := h
        obtain ⟨rfl, ha⟩ := parseKeys_bytes hk
        exact key (.ownedBy (by omega) ha) h
      split at h
      · rename_i ht; subst ht
        inv at h
        obtain ⟨⟨a, ks⟩, hk, h⟩ := h
        obtain ⟨rfl, ha⟩ := parseKeys_bytes hk
        exact key (.pubkeyMatch (by omega) ha) h
      · have ht : ty = 5 := by omega
        subst ht
        exact key (.empty (by omega)) (pure_ok.mp h)
    · rw [parseL] at h
      split at h
      · rename_i hb
        cases h
        rw [List.isEmpty_iff.mp hb]
        exact .nil
      · inv at h
        obtain ⟨⟨c, n⟩, hc, cs', hcs, rfl⟩ := h
        obtain ⟨x, rest, rfl, rfl, hm⟩ := ihC _ _ _ hc
        rw [List.drop_left' rfl] at hcs
        exact .cons hm (ihL _ _ hcs)

theorem parse_meaning {b : Bytes} {c : Cst} :
    parseConstraint b = .ok c ↔ ∃ x rest, b = x ++ rest ∧ Meaning x c := by
  unfold parseConstraint
  constructor
  · intro h
    inv at h
    obtain ⟨⟨c', n⟩, hc, rfl⟩ := h
    obtain ⟨x, rest, h1, _, h2⟩ := (says_read _).1 _ _ _ hc
    exact ⟨x, rest, h1, h2⟩
  · rintro ⟨x, rest, rfl, h⟩
    rw [reads_meaning h _ rest (by rw [List.length_append]; omega)]
    rfl

/-! ## The shortest way to say it -/

mutual
theorem meaning_least {b : Bytes} {c : Cst} (h : Meaning b c) :
    (buildC c).length ≤ b.length ∧ (b.length ≤ (buildC c).length → b = buildC c) := by
  match h with
  | .and _ h =>
    obtain ⟨h1, h2⟩ := meanings_least h
    rw [buildC_and, operator_eq, length_opBytes, length_opBytes]
    exact ⟨by omega, fun hl => by rw [h2 (by omega)]⟩
  | .or _ h =>
    obtain ⟨h1, h2⟩ := meanings_least h
    rw [buildC_or, operator_eq, length_opBytes, length_opBytes]
    exact ⟨by omega, fun hl => by rw [h2 (by omega)]⟩
  | .not (rest := r) _ h =>
    obtain ⟨h1, h2⟩ := meaning_least h
    rw [buildC_not, operator_eq, length_opBytes, length_opBytes, List.length_append]
    refine ⟨by omega, fun hl => ?_⟩
    have hr : r = [] := List.eq_nil_of_length_eq_zero (by omega)
    rw [hr, List.append_nil, h2 (by omega)]
  | .ownedBy _ _ =>
    rw [buildC_ownedBy, operator_eq, keyBody_eq]
    exact ⟨Nat.le_refl _, fun _ => rfl⟩
  | .pubkeyMatch _ _ =>
    rw [buildC_pubkeyMatch, operator_eq, keyBody_eq]
    exact ⟨Nat.le_refl _, fun _ => rfl⟩
  | .empty (body := body) _ =>
    rw [buildC_empty, operator_eq, length_opBytes, length_opBytes]
    refine ⟨by simp, fun hl => ?_⟩
    have hr : body = [] := List.eq_nil_of_length_eq_zero (by simp at hl; omega)
    rw [hr]

theorem meanings_least {b : Bytes} {cs : List Cst} (h : Meanings b cs) :
    (cs.flatMap buildC).length ≤ b.length ∧
    (b.length ≤ (cs.flatMap buildC).length → b = cs.flatMap buildC) := by
  match h with
  | .nil => exact ⟨Nat.le_refl _, fun _ => rfl⟩
  | .cons h hs =>
    obtain ⟨h1, h2⟩ := meaning_least h
    obtain ⟨h3, h4⟩ := meanings_least hs
    rw [List.flatMap_cons, List.length_append, List.length_append]
    exact ⟨by omega, fun hl => by rw [← h2 (by omega), ← h4 (by omega)]⟩
end

end Verif
