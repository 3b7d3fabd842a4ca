import Verif.Spec.InBounds
import Verif.Lemmas.InBounds
import Verif.Props.C15
import Verif.Props.C25
import Verif.Props.C41

/-!
# C75 — memory is accessed inside the data of accounts only

Write, Update and Remove move bytes through raw pointers, with lengths and offsets read from the
account. On well-formed accounts these always stay inside.
-/

namespace Verif.Props

open Verif Verif.Spec

variable {E : Env} {L : Ledger} {accts : List Key} {i : Instr}

theorem inside_processInstr (h : Inside (dispatch E L i (accts.take 7))) : Inside (execute E L accts i) := by
  have hs : ∀ ks, Inside (lockedScan E L ks) := by
    intro ks
    induction ks with
    | nil => exact inside_ok _
    | cons x ks ih => unfold lockedScan; simp only; safe
  unfold execute
  refine inside_bind ?_ fun _ _ => by safe
  unfold processInstr
  refine inside_bind ?_ fun _ _ => inside_bind (hs _) fun _ _ =>
    inside_bind (inside_require (by decide)) fun _ _ => h
  unfold proxiedCheck; simp only; safe

theorem inside_dispatch (hm : Modest i) (hw : Plain i ∨ WellFormed E.program L ∧ NamesType i) :
    Inside (dispatch E L i accts) := by
  have hst : ∀ k, WellFormed E.program L → ∃ A, Initialized (L k).data → (L k).owner = E.program →
      Stores E.program L k A := by
    intro k hw
    by_cases h : Initialized (L k).data ∧ (L k).owner = E.program
    · rcases (hw k h.2).2 with ⟨A, hA, _⟩ | hb
      · exact ⟨A, fun _ _ => hA⟩
      · exact absurd h.1 hb.not_init
    · exact ⟨Asset.of (assetAt L k) [], fun h1 h2 => absurd ⟨h1, h2⟩ h⟩
  unfold dispatch
  split
  case h_2 => exact inside_processBurn
  case h_3 =>
    exact inside_create fun y hy p hp =>
      Nat.lt_trans (hm y ((createOrder_perm _).mem_iff.mp hy) p hp) (by decide)
  case h_5 => exact inside_allocate fun p hp => Nat.lt_trans (hm p hp) (by decide)
  case h_11 =>
    obtain ⟨hw, ht⟩ := hw.resolve_left id
    obtain ⟨A, hA⟩ := hst _ hw
    exact inside_update hA (fun e he => ⟨ht e he, hm e he⟩) fun b _ ho => (hw b ho).1
  case h_13 =>
    obtain ⟨hw, _⟩ := hw.resolve_left id
    refine inside_write fun ho h o hl hd hlen => ?_
    rcases (hw _ ho).2 with ⟨A, hA, _⟩ | hb
    · rw [show hDisc _ = discAsset from hA.1.2.2] at hd
      exact absurd hd (by decide)
    · exact hb.last hlen hl
  case h_17 =>
    obtain ⟨hw, ht⟩ := hw.resolve_left id
    obtain ⟨A, hA⟩ := hst _ hw
    exact inside_remove ht hA
  all_goals first
    | exact inside_processClose
    | exact inside_processApprove
    | exact inside_processLock
    | exact inside_processRevoke
    | exact inside_processTransfer
    | exact inside_processUnlock
    | exact inside_setVerified
    | exact inside_group
    | exact inside_processUngroup
    | exact inside_processHandover
    | exact inside_processResize
    | exact inside_error (by decide)

/-- The other instructions stay inside the accounts whatever these contain. -/
theorem C75_plain (hp : Plain i) (hm : Modest i) : execute E L accts i ≠ .error .oob :=
  inside_processInstr (inside_dispatch hm (.inl hp))

/-- And on well-formed accounts every instruction does, as long as it does not name the extension
type None.

The full claim is for all accounts that the program can bring about, and all instructions; it is
refuted below. -/
theorem C75_safe_partial (hw : WellFormed E.program L) (ht : NamesType i) (hm : Modest i) :
    execute E L accts i ≠ .error .oob :=
  inside_processInstr (inside_dispatch hm (.inr ⟨hw, ht⟩))

/-- Thus no history of instructions used as intended leads to an access outside. -/
theorem C75_history_partial {L0 : Ledger} (h0 : Genesis E.program L0) (hs : ProperSteps E.program L0 L)
    (ht : NamesType i) (hm : Modest i) : execute E L accts i ≠ .error .oob :=
  C75_safe_partial (wf_steps h0.wellFormed hs) ht hm

section Examples
open Verif.Ex

/-- A new asset with two extensions. -/
def twoNew : Except Err Ledger :=
  run empties [k 1, k 3, k 5] createAccts (.create ⟨[65], .nonFungible, true,
    some [⟨.attributes, 8, some [1, 97, 1, 98, 1, 99, 1, 100]⟩, ⟨.blob, 3, some [0, 2, 3]⟩]⟩)

/-- Its authority makes room for 24 more bytes. -/
def roomy : Except Err Ledger :=
  twoNew.bind fun L => run L [k 3, k 5] [k 1, k 3, k 5, Key.system] (.resize (.extend 24))

/-- The conditions can be met, and the two steps above succeed. -/
example : Genesis prog empties ∧ NamesType (.update ⟨none, none, some ⟨.blob, 3, some [0, 7, 8]⟩⟩) ∧
    Modest (.update ⟨none, none, some ⟨.blob, 3, some [0, 7, 8]⟩⟩) ∧ roomy.isOk = true :=
  ⟨empties_genesis, by rintro e ⟨⟩; decide, by rintro e ⟨⟩; decide, by decide +kernel⟩

/-- A plain instruction that is refused without an access outside: a transfer of an account that is
too short. -/
example : Plain (.transfer) ∧ (run (ledger [(k 1, owned (zeros 3)), (k 3, wallet)]) [k 3] [k 1, k 3, k 2, prog]
    .transfer).isOk = false := ⟨trivial, by decide +kernel⟩

/-- The full claim is false: the authority removes the extension of type None from the account with
spare bytes, and the program moves the content of the account out of it. -/
theorem C75_false : ∃ L, roomy = .ok L ∧
    run L [k 3] [k 1, k 3, prog, k 5] (.remove .none) = .error .oob := by
  have h : (roomy.bind fun L => run L [k 3] [k 1, k 3, prog, k 5] (.remove .none)).map (fun _ => ()) =
    .error .oob := by decide +kernel
  rcases e : roomy with x | L
  · have : roomy.isOk = true := by decide +kernel
    rw [e] at this; cases this
  · rw [e] at h
    refine ⟨L, rfl, ?_⟩
    change Except.map _ (run L [k 3] [k 1, k 3, prog, k 5] (.remove .none)) = _ at h
    rcases e2 : run L [k 3] [k 1, k 3, prog, k 5] (.remove .none) with x | L2
    · rw [e2] at h; exact congrArg _ (Except.error.inj h)
    · rw [e2] at h; cases h

/-- And without that type: after the removal of an extension the one behind it claims bytes past the
end of the account; an update that uses them writes there. -/
theorem C75_stale : ((twoNew.bind fun L =>
      run L [k 3] [k 1, k 3, prog, k 5] (.remove .attributes)).bind fun L =>
      run L [k 3, k 5] [k 1, k 3, prog, prog, k 5, Key.system]
        (.update ⟨none, none, some ⟨.blob, 32, some (zeros 32)⟩⟩)).map (fun _ => ()) =
    .error .oob := by decide +kernel

end Examples

end Verif.Props
