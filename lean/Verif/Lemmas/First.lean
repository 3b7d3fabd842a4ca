import Verif.Lemmas.Walk
import Verif.Spec.First
import Verif.Model.Runtime

/-!
# The searches of the program find what the headers say: lemmas
-/

namespace Verif

open Verif.Spec

variable {d e : Bytes} {t : ExtType}

private theorem is_type {n : Nat} : ExtType.ofU32 n = some t ↔ n = t.toU32 :=
  ⟨toU32_ofU32, fun h => h ▸ ofU32_toU32 t⟩

theorem payloadAt_range {c : Nat} {p : Bytes} (h : payloadAt e c = .ok p) :
    c + 16 + leNat (slice e (c + 4) 4) ≤ e.length ∧ p = slice e (c + 16) (leNat (slice e (c + 4) 4)) := by
  unfold payloadAt at h
  simp only at h
  split at h
  · rename_i hl
    cases h
    exact ⟨hl, rfl⟩
  · cases h

/-- `Extension::get`. -/
theorem extFind_first {r : Option Nat} {q : Option (Nat × Bytes)} :
    ∀ {fuel c : Nat}, extFindFrom t e fuel c = .ok r →
      (match r with
        | none => q = none
        | some c => ∃ p, payloadAt e c = .ok p ∧ q = some (c + 16, p)) → First t.toU32 168 e c q := by
  intro fuel
  induction fuel with
  | zero => intro c h; cases h
  | succ fuel ih =>
    intro c h hq
    unfold extFindFrom at h
    simp only at h
    split at h
    · rename_i hl
      have hl : c + 16 ≤ e.length := hl
      split at h
      · rename_i ht
        cases h
        obtain ⟨p, hp, rfl⟩ := hq
        obtain ⟨h1, rfl⟩ := payloadAt_range hp
        exact .here h1 (is_type.mp ht) rfl
      · rename_i ht
        have ht : leNat (slice e c 4) ≠ t.toU32 := fun h => ht (is_type.mpr h)
        split at h
        · rename_i hz
          cases h
          subst hq
          exact .stop hl ht (is_type.mp hz)
        · rename_i hz
          have hz : leNat (slice e c 4) ≠ 0 := fun h => hz (is_type.mpr h)
          split at h
          · rename_i hb
            have hb : 168 ≤ leNat (slice e (c + 8) 4) := hb
            exact .next hl ht hz (b := leNat (slice e (c + 8) 4) - 168) (by omega) (ih h hq)
          · rename_i hb
            have hb : ¬ 168 ≤ leNat (slice e (c + 8) 4) := hb
            split at h
            · cases h
            · cases h
              subst hq
              exact .back hl ht hz (by omega)
    · rename_i hl
      cases h
      subst hq
      exact .over (by have : ¬ c + 16 ≤ e.length := hl; omega)

/-- `Asset::get`. -/
theorem find_first {r : Option Nat} {q : Option (Nat × Bytes)} :
    ∀ {fuel c : Nat}, findFrom t e fuel c = .ok r →
      (match r with
        | none => q = none
        | some c => ∃ p, payloadAt e c = .ok p ∧ q = some (c + 16, p)) → First t.toU32 0 e c q := by
  intro fuel
  induction fuel with
  | zero => intro c h; cases h
  | succ fuel ih =>
    intro c h hq
    unfold findFrom at h
    simp only at h
    split at h
    · rename_i hl
      have hl : c + 16 ≤ e.length := hl
      split at h
      · rename_i ht
        cases h
        obtain ⟨p, hp, rfl⟩ := hq
        obtain ⟨h1, rfl⟩ := payloadAt_range hp
        exact .here h1 (is_type.mp ht) rfl
      · rename_i ht
        have ht : leNat (slice e c 4) ≠ t.toU32 := fun h => ht (is_type.mpr h)
        split at h
        · rename_i hz
          cases h
          subst hq
          exact .stop hl ht (is_type.mp hz)
        · rename_i hz
          have hz : leNat (slice e c 4) ≠ 0 := fun h => hz (is_type.mpr h)
          exact .next hl ht hz (b := leNat (slice e (c + 8) 4)) (by omega) (ih h hq)
    · rename_i hl
      cases h
      subst hq
      exact .over (by have : ¬ c + 16 ≤ e.length := hl; omega)

theorem extGet_first {q : Option (Nat × Bytes)} (h : extGet t e = .ok q) : First t.toU32 168 e 0 q := by
  unfold extGet at h
  cases hf : extFindFrom t e (e.length + 1) 0 with
  | error x => rw [hf] at h; cases h
  | ok r =>
    rw [hf] at h
    refine extFind_first hf ?_
    cases r with
    | none => cases h; rfl
    | some c =>
      simp only [bind, Except.bind] at h
      cases hp : payloadAt e c with
      | error x => rw [hp] at h; cases h
      | ok p => rw [hp] at h; cases h; exact ⟨p, hp, rfl⟩

theorem assetGetMut_first {q : Option (Nat × Bytes)} (h : assetGetMut t d = .ok q) :
    First t.toU32 0 d 168 q := by
  unfold assetGetMut find at h
  cases hf : findFrom t d (d.length + 1) assetLen with
  | error x => rw [hf] at h; cases h
  | ok r =>
    rw [hf] at h
    refine find_first (c := 168) hf ?_
    cases r with
    | none => cases h; rfl
    | some c =>
      simp only [bind, Except.bind] at h
      cases hp : payloadAt d c with
      | error x => rw [hp] at h; cases h
      | ok p => rw [hp] at h; cases h; exact ⟨p, hp, rfl⟩

theorem managerOf_has {m : Option Delegate} (h : managerOf d = .ok m) : HasManager d m := by
  unfold managerOf at h
  cases hx : extGet .manager (d.drop assetLen) with
  | error x => rw [hx] at h; cases h
  | ok r =>
    rw [hx] at h
    refine ⟨r, extGet_first hx, ?_⟩
    cases r with
    | none =>
      cases h
      exact ⟨fun _ _ h => (by cases h), rfl⟩
    | some r =>
      obtain ⟨o, p⟩ := r
      simp only [bind, Except.bind, readManager] at h
      by_cases hl : p.length < 33
      · rw [if_pos hl] at h; cases h
      · rw [if_neg hl] at h
        cases h
        refine ⟨fun _ _ h => ?_, rfl⟩
        cases h
        omega

theorem readGrouping_in {p : Bytes} {g : Grouping} (h : readGrouping p = .ok g) :
    GroupingIn p g.size g.maxSize g.delegate := by
  unfold readGrouping at h
  split at h
  · cases h
  · split at h
    · cases h
      exact ⟨rfl, rfl, .inl ⟨by omega, by omega, rfl⟩⟩
    · split at h
      · cases h
        exact ⟨rfl, rfl, .inr ⟨by omega, rfl⟩⟩
      · cases h

theorem Spec.GroupingIn.length {p : Bytes} {size limit : Nat} {x : Key} (h : GroupingIn p size limit x) :
    16 ≤ p.length := by
  rcases h.2.2 with h | h <;> omega

theorem assetGet_first {q : Option Bytes} (h : assetGet t d = .ok q) :
    ∃ r, First t.toU32 0 d 168 r ∧ q = r.map (·.2) := by
  unfold assetGet at h
  cases hf : find t d with
  | error x => rw [hf] at h; cases h
  | ok r =>
    rw [hf] at h
    cases r with
    | none =>
      cases h
      exact ⟨none, find_first (c := 168) hf rfl, rfl⟩
    | some c =>
      simp only [bind, Except.bind] at h
      cases hp : payloadAt d c with
      | error x => rw [hp] at h; cases h
      | ok p =>
        rw [hp] at h
        cases h
        exact ⟨some (c + 16, p), find_first (c := 168) hf ⟨p, hp, rfl⟩, rfl⟩

/-- The search of the interface for the Proxy extension. -/
theorem readProxy_has {x : Proxy} (h : (do
    match ← assetGet .proxy d with
    | none => .error .invalidAccountData
    | some p => readProxy p) = .ok x) : HasProxy d x := by
  cases hg : assetGet .proxy d with
  | error e => rw [hg] at h; cases h
  | ok q =>
    rw [hg] at h
    obtain ⟨r, hr, rfl⟩ := assetGet_first hg
    cases r with
    | none => cases h
    | some y =>
      obtain ⟨o, p⟩ := y
      have h : readProxy p = .ok x := h
      unfold readProxy at h
      split at h
      · cases h
      · rename_i hl
        cases h
        exact ⟨o, p, hr, by omega, rfl⟩

theorem Spec.First.range {ty base c : Nat} {q : Option (Nat × Bytes)} (h : First ty base e c q) :
    ∀ {off : Nat} {p : Bytes}, q = some (off, p) →
      off + p.length ≤ e.length ∧ p = slice e off p.length := by
  induction h with
  | here h ht hn =>
    intro off p hq
    cases hq
    rw [length_slice (by omega)]
    exact ⟨h, rfl⟩
  | next _ _ _ _ _ ih => exact ih
  | stop => intro _ _ h; cases h
  | back => intro _ _ h; cases h
  | over => intro _ _ h; cases h

/-! ## One result -/

theorem Spec.First.unique {ty base : Nat} {c : Nat} {q q' : Option (Nat × Bytes)}
    (h : First ty base e c q) (h' : First ty base e c q') : q = q' := by
  induction h with
  | here h ht hn =>
    cases h' with
    | here h2 ht2 hn2 => rw [← hn, ← hn2]
    | next h2 ht2 => exact absurd ht ht2
    | stop h2 ht2 => exact absurd ht ht2
    | back h2 ht2 => exact absurd ht ht2
    | over h2 => omega
  | next h ht hz hb hr ih =>
    cases h' with
    | here h2 ht2 hn2 => exact absurd ht2 ht
    | next h2 ht2 hz2 hb2 hr2 =>
      rw [hb] at hb2
      obtain rfl := Nat.add_left_cancel hb2
      exact ih hr2
    | stop h2 ht2 hz2 => exact absurd hz2 hz
    | back h2 ht2 hz2 hb2 => omega
    | over h2 => omega
  | stop h ht hz =>
    cases h' with
    | here h2 ht2 => exact absurd ht2 ht
    | next h2 ht2 hz2 => exact absurd hz hz2
    | stop => rfl
    | back => rfl
    | over => rfl
  | back h ht hz hb =>
    cases h' with
    | here h2 ht2 => exact absurd ht2 ht
    | next h2 ht2 hz2 hb2 => omega
    | stop => rfl
    | back => rfl
    | over => rfl
  | over h =>
    cases h' with
    | here h2 => omega
    | next h2 => omega
    | stop => rfl
    | back => rfl
    | over => rfl

theorem Spec.HasManager.unique {m m' : Option Delegate} (h : HasManager d m) (h' : HasManager d m') :
    m = m' := by
  obtain ⟨r, h1, _, rfl⟩ := h
  obtain ⟨r', h2, _, rfl⟩ := h'
  rw [h1.unique h2]

theorem Spec.HasProxy.unique {x y : Proxy} (h : HasProxy d x) (h' : HasProxy d y) : x = y := by
  obtain ⟨o, p, h1, _, rfl⟩ := h
  obtain ⟨o', p', h2, _, rfl⟩ := h'
  have := h1.unique h2
  cases this
  rfl

/-! ## Well-formed accounts -/

theorem first_walk {es : List Extn} {o n : Nat} (h : Walk d o es n) (he : Ends d n) (ht : t ≠ .none)
    (ho : 168 ≤ o) : ∃ q, First t.toU32 168 (d.drop 168) (o - 168) q ∧ q.map (·.2) = lookup t es := by
  have hs : ∀ o n, 168 ≤ o → slice (d.drop 168) (o - 168) n = slice d o n := fun o n ho => by
    rw [slice_drop, show 168 + (o - 168) = o by omega]
  have hl : (d.drop 168).length = d.length - 168 := by simp
  have h0 : ExtType.none.toU32 = 0 := rfl
  have hz : ∀ t : ExtType, t ≠ .none → t.toU32 ≠ 0 := fun t ht h => ht (toU32_inj (h.trans h0.symm))
  induction h with
  | @nil o h =>
    refine ⟨none, ?_, rfl⟩
    rcases he with he | he
    · exact .over (by omega)
    · by_cases hc : (d.drop 168).length < o - 168 + 16
      · exact .over hc
      · refine .stop (by omega) ?_ (by rw [hs _ _ ho]; exact he)
        rw [hs _ _ ho, he]
        exact (hz t ht).symm
  | @cons o b n t' p es ht' h1 h2 h3 hb hp hr ih =>
    have hb2 := hr.le
    have e1 : o - 168 + 4 = (o + 4) - 168 := by omega
    have e2 : o - 168 + 8 = (o + 8) - 168 := by omega
    have e3 : o - 168 + 16 = (o + 16) - 168 := by omega
    unfold lookup
    by_cases he' : t' = t
    · subst he'
      rw [if_pos rfl]
      refine ⟨some (o - 168 + 16, p), ?_, rfl⟩
      have := First.here (ty := t'.toU32) (base := 168) (e := d.drop 168) (off := o - 168) (n := p.length)
        (by omega) (by rw [hs _ _ ho]; exact h1) (by rw [e1, hs _ _ (by omega)]; exact h2)
      rwa [e3, hs _ _ (by omega), hp, ← e3] at this
    · rw [if_neg he']
      obtain ⟨q, hq, hq'⟩ := ih he (by omega)
      refine ⟨q, .next (b := b - 168) (by omega) ?_ ?_ ?_ hq, hq'⟩
      · rw [hs _ _ ho, h1]
        exact fun h => he' (toU32_inj h)
      · rw [hs _ _ ho, h1]
        exact hz _ ht'
      · rw [e2, hs _ _ (by omega), h3]
        omega

end Verif
