import Verif.Spec.Since
import Verif.Lemmas.Forge
import Verif.Props.C15

/-!
# Since when something holds of an asset
-/

namespace Verif

open Verif.Spec

variable {E : Env} {program k : Key} {L L' L0 : Ledger} {accts : List Key}

/-- A new asset is what was asked for. -/
theorem newborn {x : CreateInput} {A : Asset} (hw : WellFormed E.program L)
    (h : execute E L accts (.create x) = .ok L') (hl : ∀ k, E.origLen k = (L k).data.length)
    (hi : Sane (asked x)) (hk : accts.head? = some k) (hA : Stores E.program L' k A) :
    ¬ IsAsset E.program L k ∧ E.signer k = true ∧
      ∃ au o rest g es0 es, accts = k :: au :: o :: rest ∧ A = newAsset x o au g es ∧
        List.Forall₂ (Born au) es0 es := by
  have hn : ¬ IsAsset E.program L k := by
    intro ha
    obtain ⟨e, he⟩ := Props.C15_once ha hk (.inl ⟨x, rfl⟩)
    rw [h] at he
    cases he
  have hbuf : (L k).data.length ≤ 10485760 ∧ Buffer (L k).data := by
    by_cases ho : (L k).owner = E.program
    · refine ⟨(hw k ho).1, ?_⟩
      rcases (hw k ho).2 with ⟨B, hB, _⟩ | hb
      · exact absurd hB.1 hn
      · exact hb
    · rw [(newly_owned h hA.1.1 ho).2]
      exact ⟨by simp, buffer_nil⟩
  obtain ⟨es, hu, _⟩ := buffer_unborn h hk hbuf.2 hbuf.1 hi
  obtain ⟨a, au, o, g, ga, pa, s, rest, es1, rfl, _, _, hst, hborn, _⟩ :=
    create_stores (es := es) h hl (by intro b hb; rw [hk] at hb; cases hb; exact hu)
      (by intro b hb; rw [hk] at hb; cases hb; exact hbuf.1) hi
  obtain rfl : a = k := by simpa using hk
  refine ⟨hn, ?_, au, o, _, _, _, es1, rfl, hA.unique hst, hborn⟩
  obtain ⟨a', au', o', rest', es', he, hs', _⟩ := Props.C15_create h
  cases he
  exact hs'

/-- What holds of an asset now began to hold with an instruction, and has held ever since. -/
theorem origin {P : Asset → Prop} (h0 : Genesis program L0) (hs : ProperSteps program L0 L)
    {A : Asset} (hA : Stores program L k A) (hP : P A) :
    ∃ E L1 L2 accts i A', E.program = program ∧ ProperSteps program L0 L1 ∧
      execute E L1 accts i = .ok L2 ∧ Stores program L2 k A' ∧ P A' ∧ Since program k P L2 L ∧
      ((∃ x au o rest g es0 es, i = .create x ∧ accts = k :: au :: o :: rest ∧ E.signer k = true ∧
          ¬ IsAsset program L1 k ∧ A' = newAsset x o au g es ∧ List.Forall₂ (Born au) es0 es) ∨
        ∃ B, Stores program L1 k B ∧ Distinct B.exts ∧ ¬ P B ∧ Move E accts k i B A' ∧
          Proper program L1 accts i) := by
  induction hs generalizing A with
  | refl => exact absurd hA.1.1 (h0 k)
  | @tail L' L'' hs h ih =>
    have hw := wf_steps h0.wellFormed hs
    by_cases hp : ∃ B, Stores program L' k B ∧ P B
    · obtain ⟨B, hB, hPB⟩ := hp
      obtain ⟨E, L1, L2, accts, i, A', h1, h2, h3, h4, h5, h6, h7⟩ := ih hB hPB
      exact ⟨E, L1, L2, accts, i, A', h1, h2, h3, h4, h5, .tail h6 h hA hP, h7⟩
    · cases h with
      | foreign hf =>
        obtain ⟨g1, g2⟩ := foreign_asset hf hA.1
        exact absurd ⟨A, hA.congr (g1.1.trans hA.1.1.symm) g2.symm, hP⟩ hp
      | instr E accts i hpr hl h hi =>
        subst hpr
        refine ⟨E, L', L'', accts, i, A, rfl, hs, h, hA, hP, .refl hA hP, ?_⟩
        by_cases hc : ∃ x, i = .create x ∧ accts.head? = some k
        · obtain ⟨x, rfl, hh⟩ := hc
          obtain ⟨n1, n2, au, o, rest, g, es0, es, n3, n4, n5⟩ := newborn hw h hl hi hh hA
          exact .inl ⟨x, au, o, rest, g, es0, es, rfl, n3, n2, n1, n4, n5⟩
        · obtain ⟨B, hB, hd⟩ := born_before hw h hl hi hA fun x hx hh => hc ⟨x, hx, hh⟩
          refine .inr ⟨B, hB, hd, fun hPB => hp ⟨B, hB, hPB⟩, ?_, hi⟩
          rcases refine hB h (hi.sound hB hd) with ⟨_, _, hgone⟩ | ⟨C, hC, hmv⟩
          · have := hA.1.2.1
            rw [hgone] at this
            simp at this
          · obtain rfl := hC.unique hA
            exact hmv

end Verif
