import Verif.Lemmas.Moves
import Mathlib.Data.List.Forall2

/-!
# Histories of one asset
-/

namespace Verif

open Verif.Spec

section
variable {E : Env} {program k : Key} {L L' : Ledger} {accts : List Key} {A A' : Asset} {i : Instr}

theorem Spec.Stores.foreign (h : Stores program L k A) (hf : Foreign program L L') :
    Stores program L' k A := by
  obtain ⟨h1, h2⟩ := (hf k).1 h.1.1
  exact h.congr (h1.trans h.1.1.symm) h2

/-- An invariant of the machine is an invariant of all histories. -/
theorem SoundLife.invariant {P : List Key → Instr → Prop} {I : Asset → Prop}
    (hstep : ∀ E accts i A A', E.program = program → P accts i → I A → Move E accts k i A A' → I A')
    (hs : Stores program L k A) (hI : I A) (hl : SoundLife program k P L L') :
    ∃ A', Stores program L' k A' ∧ I A' := by
  induction hl with
  | refl => exact ⟨A, hs, hI⟩
  | instr E accts i _ hp h hb hP hsound ih =>
    obtain ⟨B, h1, h2⟩ := ih
    subst hp
    rcases refine h1 h (hsound B h1) with ⟨c1, c2, _⟩ | ⟨B', c1, c2⟩
    · exact absurd ⟨c1, c2⟩ hb
    · exact ⟨B', c1, hstep E accts i B B' rfl hP h2 c2⟩
  | foreign _ hf ih =>
    obtain ⟨B, h1, h2⟩ := ih
    exact ⟨B, h1.foreign hf, h2⟩

/-- An immutable asset accepts no update and no removal. -/
theorem sound_immutable (hs : Stores E.program L k A) (hm : A.mutableByte = 0)
    (h : execute E L accts i = .ok L') : Sound k A accts i := by
  have hk : hMutable (L k).data = true → False := fun h => hs.mutable_eq h hm
  cases i with
  | update x =>
    intro hh
    obtain ⟨a, au, b, g, p, s, rest, rfl, hp⟩ := exec_update h
    obtain rfl : a = k := by simpa using hh
    obtain ⟨_, _, _, _, _, hm⟩ := processUpdate_eff hp
    exact (hk hm).elim
  | remove t =>
    intro hh
    obtain ⟨a, au, g, r, rest, rfl, hp⟩ := exec_remove h
    obtain rfl : a = k := by simpa using hh
    unfold processRemove at hp
    inv at hp
    exact (hk hp.2.2.2.2.1).elim
  | _ => trivial

theorem Life.invariant {I : Asset → Prop}
    (hmut : ∀ A, I A → A.mutableByte = 0)
    (hstep : ∀ E accts i A A', E.program = program → I A → Move E accts k i A A' → I A')
    (hs : Stores program L k A) (hI : I A) (hl : Life program k L L') :
    ∃ A', Stores program L' k A' ∧ I A' := by
  induction hl with
  | refl => exact ⟨A, hs, hI⟩
  | instr E accts i _ hp h hb ih =>
    obtain ⟨B, h1, h2⟩ := ih
    subst hp
    rcases refine h1 h (sound_immutable h1 (hmut B h2) h) with ⟨c1, c2, _⟩ | ⟨B', c1, c2⟩
    · exact absurd ⟨c1, c2⟩ hb
    · exact ⟨B', c1, hstep E accts i B B' rfl h2 c2⟩
  | foreign _ hf ih =>
    obtain ⟨B, h1, h2⟩ := ih
    exact ⟨B, h1.foreign hf, h2⟩

/-! ## Bookkeeping -/

theorem SameButBooks.trans {t : ExtType} {p q r : Bytes} (h1 : SameButBooks t p q)
    (h2 : SameButBooks t q r) : SameButBooks t p r := by
  refine ⟨h2.1.trans h1.1, fun i hi => ?_⟩
  by_cases h : q[i]? = p[i]?
  · exact h2.2 i (by rw [h]; exact hi)
  · exact h1.2 i h

theorem SameExtn.refl (x : Extn) : SameExtn x x := ⟨rfl, SameButBooks.refl _ _⟩

theorem SameExtn.trans {x y z : Extn} (h1 : SameExtn x y) (h2 : SameExtn y z) : SameExtn x z :=
  ⟨h2.1.trans h1.1, SameButBooks.trans h1.2 (h1.1 ▸ h2.2)⟩

theorem forall2_refl (es : List Extn) : List.Forall₂ SameExtn es es := by
  induction es with
  | nil => exact .nil
  | cons x xs ih => exact .cons (SameExtn.refl x) ih

theorem forall2_trans {a b c : List Extn} (h1 : List.Forall₂ SameExtn a b)
    (h2 : List.Forall₂ SameExtn b c) : List.Forall₂ SameExtn a c := by
  induction h1 generalizing c with
  | nil => exact h2
  | cons h _ ih =>
    cases h2 with
    | cons h' t' => exact .cons (SameExtn.trans h h') (ih t')

theorem forall2_setExt {t : ExtType} {p q : Bytes} {es : List Extn} (hl : lookup t es = some p)
    (h : SameButBooks t p q) : List.Forall₂ SameExtn es (setExt t q es) := by
  induction es with
  | nil => cases hl
  | cons x xs ih =>
    obtain ⟨t', p'⟩ := x
    rw [lookup] at hl
    rw [setExt]
    split at hl
    · rename_i ht
      subst ht
      cases hl
      rw [if_pos rfl]
      exact .cons ⟨rfl, h⟩ (forall2_refl xs)
    · rename_i ht
      rw [if_neg ht]
      exact .cons (SameExtn.refl _) (ih hl)

theorem books_withMembers {p : Bytes} (n : Nat) (h : 8 ≤ p.length) :
    SameButBooks .grouping p (withMembers p n) := by
  rw [← setGroupSize_eq]; exact books_setGroupSize n h

theorem getElem?_byteAt {p : Bytes} {i : Nat} (h : i < p.length) : p[i]? = some (byteAt p i) := by
  unfold byteAt
  rw [List.getD_eq_getElem?_getD, List.getElem?_eq_getElem h]
  rfl

theorem books_setsFlags {c : Key} {v : UInt8} {p q : Bytes} (h : SetsFlags c v p q) :
    SameButBooks .creators p q := by
  obtain ⟨h0, h1, h2⟩ := h
  refine ⟨h1, fun i hi => Or.inl ⟨rfl, ?_⟩⟩
  by_cases hl : i < p.length
  · obtain ⟨g1, g2, _⟩ := h2 (i / 34) (by omega)
    by_contra hne
    apply hi
    by_cases h33 : i % 34 = 33
    · have e : i / 34 * 34 + 33 = i := by omega
      rw [e] at g2
      rw [getElem?_byteAt hl, getElem?_byteAt (by omega), g2]
    · have := congrArg (fun l => l[i % 34]?) g1
      simp only [getElem?_slice] at this
      rw [if_pos (by omega), if_pos (by omega)] at this
      rwa [show i / 34 * 34 + i % 34 = i by omega] at this
  · exact absurd (by rw [List.getElem?_eq_none (by omega), List.getElem?_eq_none (by omega)]) hi

theorem forall2_types {a b : List Extn} (h : List.Forall₂ SameExtn a b) :
    b.map (·.1) = a.map (·.1) := by
  induction h with
  | nil => rfl
  | cons h _ ih => rw [List.map_cons, List.map_cons, ih, h.1]

end

end Verif
