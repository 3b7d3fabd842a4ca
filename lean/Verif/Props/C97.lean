import Verif.Props.C96
import Verif.Props.C63
import Verif.Props.C69

/-!
# C97 — what is burned stays burned
-/

namespace Verif.Props

open Verif Verif.Spec

section
variable {E : Env} {program k : Key} {L L' : Ledger} {A B : Asset}

/-- No instruction but Create gives an asset its standard. -/
theorem move_standard97 {accts : List Key} {i : Instr} (hm : Move E accts k i A B) :
    B.standard = A.standard := by
  cases hm <;> rfl

/-- In a history an asset stays, with its standard, or somebody entitled burns it. -/
theorem stays_or_burned (hw : WellFormed program L) (hs : ProperSteps program L L')
    (hA : Stores program L k A) :
    (∃ B, Stores program L' k B ∧ Alive program k L L' ∧ B.standard = A.standard) ∨
    ∃ E L1 L2 s rest, E.program = program ∧ ProperSteps program L L1 ∧
      execute E L1 (k :: s :: rest) .burn = .ok L2 ∧ E.signer s = true ∧
      ((assetAt L1 k).owner = s ∨ IsDelegate (L1 k).data s .burn) ∧ Gone L2 k ∧
      WellFormed program L2 ∧ ProperSteps program L2 L' := by
  induction hs with
  | refl => exact .inl ⟨A, hA, .refl _ hA.1, rfl⟩
  | @tail L1 L2 hs h ih =>
    rcases ih with ⟨B, hB, hal, he⟩ | ⟨E, La, Lb, s, rest, h1, h2, h3, h4, h5, h6, h7, h8⟩
    · have hstep := h
      cases h with
      | foreign hf => exact .inl ⟨B, hB.foreign hf, .tail hal hstep (hB.foreign hf).1, he⟩
      | instr E accts i hp hl h hi =>
        subst hp
        have hd : Distinct B.exts := by
          rcases (wf_steps hw hs k hB.1.1).2 with ⟨C, hC, hd⟩ | hb
          · rw [hB.unique hC]; exact hd
          · exact absurd hB.init hb.not_init
        rcases refine hB h (hi.sound hB hd) with ⟨rfl, hk, hg⟩ | ⟨C, hC, hm⟩
        · obtain ⟨a, s, r, g, rest, d, rfl, _, _, hsg, hau, _⟩ := C10_burn h
          obtain rfl : a = k := by simpa using hk
          exact .inr ⟨E, L1, L2, s, _, rfl, hs, h, hsg, hau, hg,
            wf_instr (wf_steps hw hs) h hl hi, .refl _⟩
        · exact .inl ⟨C, hC, .tail hal hstep hC.1, (move_standard97 hm).trans he⟩
    · exact .inr ⟨E, La, Lb, s, rest, h1, h2, h3, h4, h5, h6, h7, .tail h8 h⟩

theorem gone_unborn (h : Gone L k) : ¬ IsAsset program L k := by
  rintro ⟨_, h2, _⟩
  rw [h] at h2
  simp at h2

/-- As long as the instructions are used as intended: two assets seen at the same address are one and
the same, of the same standard; or the first was burned by somebody entitled, and the key of the address
itself has signed a Create since. -/
theorem C97_same_partial (hw : WellFormed program L) (hs : ProperSteps program L L')
    (hA : Stores program L k A) (hB : Stores program L' k B) :
    (Alive program k L L' ∧ B.standard = A.standard) ∨
    ∃ E1 L1 L2 s rest E2 L3 L4 accts x, E1.program = program ∧ ProperSteps program L L1 ∧
      execute E1 L1 (k :: s :: rest) .burn = .ok L2 ∧ E1.signer s = true ∧
      ((assetAt L1 k).owner = s ∨ IsDelegate (L1 k).data s .burn) ∧
      E2.program = program ∧ ProperSteps program L2 L3 ∧
      execute E2 L3 accts (.create x) = .ok L4 ∧ accts.head? = some k ∧ E2.signer k = true ∧
      Alive program k L4 L' := by
  rcases stays_or_burned hw hs hA with ⟨C, hC, h1, h2⟩ |
    ⟨E, L1, L2, s, rest, rfl, h2, h3, h4, h5, h6, hw2, h7⟩
  · rw [hB.unique hC]
    exact .inl ⟨h1, h2⟩
  · obtain ⟨E2, L3, L4, accts, x, g1, g2, g3, g4, g5, g6, g7, g8⟩ :=
      created hw2 (gone_unborn h6) h7 hB.1
    refine .inr ⟨E, L1, L2, s, rest, E2, L3, L4, accts, x, rfl, h2, h3, h4, h5, g1, g2, g6, g7, ?_, g8⟩
    obtain ⟨a, au, o, r, e, he, hk, _⟩ := C15_create g6
    subst he
    obtain rfl : a = k := by simpa using g7
    exact hk

/-- A burned asset's address is as good as new: with the signature of its key, every Create that can be
paid for is accepted there, for any owner, authority and standard that fits. -/
theorem C97_reuse {E' : Env} {accts rest : List Key} {au owner ga p : Key} {x : CreateInput}
    (h : execute E L accts .burn = .ok L') (hk : accts.head? = some k)
    (hx : InlineOk au (asked x)) (hst : StandardFits E' k x.standard ((asked x).map asExtn))
    (hsig : E'.signer k = true ∧ E'.signer p = true) (hwr : E'.writable k = true ∧ E'.writable p = true)
    (hne : p ≠ k) (hw : (L' p).owner = Key.system ∧ (L' p).data = [])
    (hr : E'.rent (packedEnd 168 ((asked x).map asExtn)) ≤ (L' p).lamports)
    (hmax : packedEnd 168 ((asked x).map asExtn) ≤ 10240)
    (hf : ∀ y ∈ asked x, Fits y)
    (hl : ∀ a, E'.origLen a = (L' a).data.length) (h64 : (L' p).lamports < 18446744073709551616)
    (hprog : E'.program ≠ Key.system ∧ p ≠ E'.program)
    (hwh : ∀ y ∈ [au, owner, E'.program, ga, Key.system] ++ rest, Whole E'.program L' y) :
    ∃ L'' es, execute E' L' (k :: au :: owner :: E'.program :: ga :: p :: Key.system :: rest)
        (.create x) = .ok L'' ∧
      Stores E'.program L'' k (newAsset x owner au none es) := by
  obtain ⟨a, s, r, g, rest', d, rfl, _, _, _, _, _, _, hg, _⟩ := C10_burn h
  obtain rfl : a = k := by simpa using hk
  obtain ⟨L'', es, h1, h2, _⟩ := C63_accepted (rest := rest) (ga := ga) (owner := owner) hx hst
    ⟨hsig, hwr, hg, hne, hw, hr, hmax⟩ hf hl h64 hprog hwh
  exact ⟨L'', es, h1, h2⟩

end

section Examples
open Verif.Ex

/-- `k 1` is a soulbound asset of `k 2`; they burn it, and `k 1` becomes an asset of `k 5` that anybody
can be given. -/
def reborn : List (List Key × List Key × Instr) :=
  [([k 1, k 5], createAccts, .create ⟨[65], .soulbound, false, none⟩),
    ([k 2], [k 1, k 2, k 2, prog], .burn),
    ([k 1, k 5], [k 1, k 3, k 5, prog, prog, k 5, Key.system], .create ⟨[65], .nonFungible, true, none⟩)]

/-- What it is at first, and in the end. -/
def rebornAsset (again : Bool) : Asset :=
  if again then ⟨0, 0, 1, k 5, Key.default, k 3, Key.default, 0, podStr35 [65], []⟩
  else ⟨0, 2, 0, k 2, Key.default, k 3, Key.default, 0, podStr35 [65], []⟩

/-- The full claim is false: an immutable soulbound asset of `k 2`, and later at the same address one
that is neither and belongs to somebody else. -/
theorem C97_false : ∃ L1 L2, ProperSteps prog empties L1 ∧ ProperSteps prog L1 L2 ∧
    Stores prog L1 (k 1) (rebornAsset false) ∧ Stores prog L2 (k 1) (rebornAsset true) := by
  have h : ((runAll (reborn.take 1) empties).map fun L => (checkStores prog L (k 1) (rebornAsset false),
      (runAll (reborn.drop 1) L).map fun L => checkStores prog L (k 1) (rebornAsset true))) =
      .ok (true, .ok true) := by decide +kernel
  obtain ⟨L1, h1, h2⟩ := ok_of_map h
  simp only [Prod.mk.injEq] at h2
  obtain ⟨L2, h3, h4⟩ := ok_of_map h2.2
  refine ⟨L1, L2, runAll_proper ?_ (.refl _) h1, runAll_proper ?_ (.refl _) h3,
    checkStores_sound h2.1, checkStores_sound h4⟩
  · intro x hx L
    simp only [reborn, List.take, List.mem_cons, List.not_mem_nil, or_false] at hx
    subst hx
    intro y hy; cases hy
  · intro x hx L
    simp only [reborn, List.drop, List.mem_cons, List.not_mem_nil, or_false] at hx
    rcases hx with rfl | rfl
    · exact trivial
    · intro y hy; cases hy

/-- Without the signature of `k 1` the last step fails, and without the burn too. -/
example :
    (runAll (reborn.take 2 ++ [([k 2, k 3, k 5], [k 1, k 3, k 5, prog, prog, k 5, Key.system],
      .create ⟨[65], .nonFungible, true, none⟩)]) empties).isOk = false ∧
    (runAll (reborn.take 1 ++ reborn.drop 2) empties).isOk = false := by
  decide +kernel

end Examples

end Verif.Props
