import Verif.Spec.Reads
import Verif.Lemmas.Walk

/-!
# The reader of the code and the specification of reading agree
-/

namespace Verif

open Verif.Spec

variable {d : Bytes} {t : ExtType} {r r' : Option Bytes}

theorem ofU32_eq_some {n : Nat} : ExtType.ofU32 n = some t ↔ n = t.toU32 := by
  constructor
  · intro h
    unfold ExtType.ofU32 at h
    split at h <;> simp at h <;> subst h <;> rfl
  · rintro rfl
    cases t <;> rfl

theorem findFrom_reads {fuel c : Nat} {o : Option Nat} (h : findFrom t d fuel c = .ok o)
    (ht : t ≠ .none) :
    (o = none → ReadsFrom d t c none) ∧
    ∀ x p, o = some x → payloadAt d x = .ok p → ReadsFrom d t c (some p) := by
  induction fuel generalizing c with
  | zero => cases h
  | succ fuel ih =>
    unfold findFrom at h
    simp only [ofU32_eq_some] at h
    have e0 : (hdrAt d c).ty = leNat (slice d c 4) := rfl
    have e1 : (hdrAt d c).len = leNat (slice d (c + 4) 4) := rfl
    have e2 : (hdrAt d c).bnd = leNat (slice d (c + 8) 4) := rfl
    have e16 : extLen = 16 := rfl
    split at h
    · rename_i hl
      rw [e0] at h
      split at h
      · rename_i hty
        cases h
        refine ⟨(by intro h; cases h), ?_⟩
        rintro x p ⟨⟩ hp
        unfold payloadAt at hp
        simp only at hp
        rw [e1] at hp
        split at hp
        · rename_i hle
          cases hp
          exact .here hty rfl hle
        · cases hp
      · split at h
        · rename_i h0
          cases h
          exact ⟨fun _ => .stop hl h0, by intro x p h; cases h⟩
        · rename_i ht' h0
          rw [e2] at h
          obtain ⟨i1, i2⟩ := ih h
          exact ⟨fun ho => .next hl h0 ht' (i1 ho), fun x p ho hp => .next hl h0 ht' (i2 x p ho hp)⟩
    · rename_i hl
      cases h
      refine ⟨fun _ => .full (by rw [e16] at hl; omega), by intro x p h; cases h⟩

theorem assetGet_reads (h : assetGet t d = .ok r) (ht : t ≠ .none) : Reads d t r := by
  unfold assetGet at h
  cases hf : find t d with
  | error e => rw [hf] at h; cases h
  | ok o =>
    rw [hf] at h
    simp only [bind, Except.bind] at h
    obtain ⟨i1, i2⟩ := findFrom_reads hf ht
    cases o with
    | none =>
      cases h
      exact i1 rfl
    | some x =>
      simp only at h
      cases hp : payloadAt d x with
      | error e => rw [hp] at h; cases h
      | ok p =>
        rw [hp] at h
        cases h
        exact i2 x p rfl hp

theorem Spec.ReadsFrom.unique {c : Nat} (ht : t ≠ .none) (h : ReadsFrom d t c r)
    (h' : ReadsFrom d t c r') : r = r' := by
  have t0 : t.toU32 ≠ 0 := by cases t <;> first | exact absurd rfl ht | decide
  induction h with
  | full h =>
    cases h' with
    | full => rfl
    | stop => rfl
    | here h0 h1 h2 => omega
    | next h => omega
  | stop h h0 =>
    cases h' with
    | full => rfl
    | stop => rfl
    | here h0' => exact absurd (h0'.symm.trans h0) t0
    | next _ h0' => exact absurd h0 h0'
  | here h0 h1 h =>
    cases h' with
    | full h' => omega
    | stop _ h0' => exact absurd (h0.symm.trans h0') t0
    | here _ h1' => subst h1; subst h1'; rfl
    | next _ _ ht' => exact absurd h0 ht'
  | next h h0 ht' _ ih =>
    cases h' with
    | full h' => omega
    | stop _ h0' => exact absurd h0' h0
    | here h0' => exact absurd h0' ht'
    | next _ _ _ hr => exact ih hr

/-- Every account has at most one reading. -/
theorem Spec.Reads.unique (ht : t ≠ .none) (h : Reads d t r) (h' : Reads d t r') : r = r' :=
  ReadsFrom.unique ht h h'

/-- On accounts that store a list of extensions, reading is `lookup`. -/
theorem reads_lookup {es : List Extn} (h : HasExts d es) (ht : t ≠ .none) :
    Reads d t (lookup t es) := assetGet_reads (assetGet_walk h ht) ht

end Verif
