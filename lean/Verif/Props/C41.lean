import Verif.Lemmas.WellFormed
import Verif.Props.C15

/-!
# C41 — every account of the program is a well-formed asset or a buffer
-/

namespace Verif.Props

open Verif Verif.Spec

/-- From a ledger in which the program owns nothing, along any history of instructions used as
intended and of other programs: every account of the program stores an asset with a packed
extension area and distinct extension types, or is a buffer; and it has at most 10 MiB.

The full claim has no condition on the instructions; it is refuted below. -/
theorem C41_wellformed_partial {program : Key} {L0 L : Ledger} (h0 : Genesis program L0)
    (hs : ProperSteps program L0 L) {k : Key} (hk : (L k).owner = program) :
    (L k).data.length ≤ 10485760 ∧
      ((∃ A, Stores program L k A ∧ (A.exts.map (·.1)).Nodup) ∨ Buffer (L k).data) :=
  wf_steps h0.wellFormed hs k hk

/-- So an account that claims to be an asset is one. -/
theorem C41_asset_partial {program : Key} {L0 L : Ledger} (h0 : Genesis program L0)
    (hs : ProperSteps program L0 L) {k : Key} (hk : (L k).owner = program)
    (hd : byteAt (L k).data 0 = 1) :
    ∃ A, Stores program L k A ∧ (A.exts.map (·.1)).Nodup := by
  rcases (C41_wellformed_partial h0 hs hk).2 with h | h
  · exact h
  · have : byteAt (L k).data 0 = 0 := h.disc
    rw [hd] at this
    exact absurd this (by decide)

/-- And it stays well-formed from any well-formed ledger on. -/
theorem C41_step_partial {program : Key} {L L' : Ledger} (hw : WellFormed program L)
    (hs : ProperSteps program L L') : WellFormed program L' := wf_steps hw hs

section Examples
open Verif.Ex

theorem ok_of_map {α β : Type} {r : Except Err α} {f : α → β} {y : β} (h : r.map f = .ok y) :
    ∃ x, r = .ok x ∧ f x = y := by
  cases r with
  | error => cases h
  | ok x => cases h; exact ⟨x, rfl, rfl⟩

theorem ledger_owner {l : List (Key × Account)} {p : Key} (hs : p ≠ Key.system)
    (h : ∀ x ∈ l, x.2.owner ≠ p) : Genesis p (ledger l) := by
  intro x
  unfold ledger
  cases hf : l.find? (fun q => q.1 = x) with
  | none => simpa [hf] using fun h => hs h.symm
  | some q => simpa [hf] using h q (List.mem_of_find?_eq_some hf)

theorem empties_genesis : Genesis prog empties :=
  ledger_owner (by decide +kernel) (by decide +kernel)

/-- A history: an extension is allocated with the first part of its data, the rest is written,
and the account becomes an asset with two extensions. -/
example : ∃ L, ProperSteps prog empties L ∧ (L (k 1)).owner = prog ∧ byteAt (L (k 1)).data 0 = 1 := by
  let i1 : Instr := .allocate ⟨.attributes, 4, some [1, 97]⟩
  let i2 : Instr := .write ⟨false, [1, 98]⟩
  have h : ((run empties [k 1, k 5] [k 1, k 5, Key.system] i1).bind fun L1 =>
      (run L1 [k 1, k 5] [k 1, k 5, Key.system] i2).bind fun L2 =>
      (run L2 [k 1, k 5] createAccts (.create request)).map fun L =>
        ((L (k 1)).owner, byteAt (L (k 1)).data 0)) = .ok (prog, 1) := by decide +kernel
  cases h1 : run empties [k 1, k 5] [k 1, k 5, Key.system] i1 with
  | error => rw [h1] at h; cases h
  | ok L1 =>
    rw [h1] at h
    have h : ((run L1 [k 1, k 5] [k 1, k 5, Key.system] i2).bind fun L2 =>
      (run L2 [k 1, k 5] createAccts (.create request)).map fun L =>
        ((L (k 1)).owner, byteAt (L (k 1)).data 0)) = .ok (prog, 1) := h
    cases h2 : run L1 [k 1, k 5] [k 1, k 5, Key.system] i2 with
    | error => rw [h2] at h; cases h
    | ok L2 =>
      rw [h2] at h
      obtain ⟨L, h3, h4⟩ := ok_of_map h
      refine ⟨L, .tail (.tail (.tail (.refl _) (.instr (env empties [k 1, k 5]) _ i1 rfl
        (fun _ => rfl) h1 ?_)) (.instr (env L1 [k 1, k 5]) _ i2 rfl (fun _ => rfl) h2 ?_))
        (.instr (env L2 [k 1, k 5]) _ _ rfl (fun _ => rfl) h3 ?_), congrArg Prod.fst h4,
        congrArg Prod.snd h4⟩
      · exact ⟨⟨by decide, by rintro p ⟨⟩; decide⟩, by decide⟩
      · rintro x ⟨⟩ es t n p hp
        have hd : (run empties [k 1, k 5] [k 1, k 5, Key.system] i1).map (fun L =>
            (lastExtension (L (k 1)).data, (L (k 1)).data.length)) =
            .ok (.ok (some (⟨1, 4, 192⟩, 184)), 186) := by decide +kernel
        rw [h1] at hd
        simp only [Except.map, Except.ok.injEq, Prod.mk.injEq] at hd
        obtain ⟨m, _, hm, hl⟩ := lastExtension_pending hp
        rw [hd.1] at hl
        simp only [Except.ok.injEq, Option.some.injEq, Prod.mk.injEq, Hdr.mk.injEq] at hl
        show (p ++ [1, 98]).length ≤ n
        rw [List.length_append]
        simp only [List.length_cons, List.length_nil]
        omega
      · intro x hx
        have : x = ⟨.manager, 33, some ((k 6).1 ++ [3])⟩ ∨ x = ⟨.blob, 3, some [0, 2, 3]⟩ := by
          simpa [asked, request] using hx
        rcases this with rfl | rfl
        · exact ⟨⟨by decide, by rintro p ⟨⟩; decide +kernel⟩, by decide⟩
        · exact ⟨⟨by decide, by rintro p ⟨⟩; decide +kernel⟩, by decide⟩

/-- The header of the first extension of a well-formed asset. -/
theorem first_boundary {program : Key} {L : Ledger} {k : Key} {A : Asset}
    (h : Stores program L k A) (h0 : leNat (slice (L k).data 168 4) ≠ 0) :
    leNat (slice (L k).data 176 4) = roundUp8 (184 + leNat (slice (L k).data 172 4)) := by
  obtain ⟨_, _, _, e, hp, hz⟩ := h
  generalize A.exts = es at hp
  cases hp with
  | nil => exact absurd hz h0
  | cons _ _ h1 h2 _ _ => rw [h1]; exact h2

/-- The full claim is false: an asset is created with three extensions and the first one is
removed. -/
theorem C41_false : ∃ L0 L k, Genesis prog L0 ∧ Steps prog L0 L ∧ (L k).owner = prog ∧
    ¬ ((∃ A, Stores prog L k A) ∨ Buffer (L k).data) := by
  let i1 : Instr := .create ⟨[65], .nonFungible, true, some [⟨.attributes, 4, some [1, 97, 1, 98]⟩,
    ⟨.blob, 7, some [1, 120, 5, 6, 7, 8, 9]⟩, ⟨.links, 5, some [1, 99, 2, 100, 101]⟩]⟩
  let i2 : Instr := .remove .attributes
  have h : ((run empties [k 1, k 5] createAccts i1).bind fun L1 =>
      (run L1 [k 3] [k 1, k 3, prog, k 5] i2).map fun L =>
        ((L (k 1)).owner, byteAt (L (k 1)).data 0, leNat (slice (L (k 1)).data 168 4),
          leNat (slice (L (k 1)).data 172 4), leNat (slice (L (k 1)).data 176 4))) =
      .ok (prog, 1, 4, 5, 216) := by decide +kernel
  cases h1 : run empties [k 1, k 5] createAccts i1 with
  | error => rw [h1] at h; cases h
  | ok L1 =>
    rw [h1] at h
    obtain ⟨L, h2, h3⟩ := ok_of_map h
    simp only [Prod.mk.injEq] at h3
    obtain ⟨a1, a2, a3, a4, a5⟩ := h3
    refine ⟨empties, L, k 1, empties_genesis, .tail _ _ _ (.tail _ _ _ (.refl _)
      (.instr (env empties [k 1, k 5]) _ _ _ i1 rfl (fun _ => rfl) h1))
      (.instr (env L1 [k 3]) _ _ _ i2 rfl (fun _ => rfl) h2), a1, ?_⟩
    rintro (⟨A, hA⟩ | hb)
    · have := first_boundary hA (by rw [a3]; decide)
      rw [a4, a5] at this
      exact absurd this (by decide)
    · have : byteAt (L (k 1)).data 0 = 0 := hb.disc
      rw [a2] at this
      exact absurd this (by decide)

end Examples

end Verif.Props
