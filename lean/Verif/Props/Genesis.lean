import Verif.Lemmas.Census
import Verif.Props.C03
import Verif.Props.C04
import Verif.Props.C08
import Verif.Props.C09
import Verif.Props.C28
import Verif.Props.Corrupt

/-!
# The history theorems from the beginning

C03, C04, C08, C09 and C28 with nothing assumed about the content of accounts: the history starts
when the program owns nothing, and instructions are used as intended (`ProperSteps`, C41). Then the
asset exists, and a history follows in which it is not burned.
-/

namespace Verif.Props

open Verif Verif.Spec

section
variable {program k : Key} {L0 L L' : Ledger} {P : List Key → Instr → Prop}

theorem born_stores (h0 : Genesis program L0) (hs : ProperSteps program L0 L)
    (ha : IsAsset program L k) : ∃ A, Stores program L k A := by
  obtain ⟨A, h, _⟩ := (wf_steps h0.wellFormed hs).stores ha
  exact ⟨A, h⟩

/-- The header of an account that stores an asset. -/
theorem assetAt_stores {A : Asset} (h : Stores program L k A) :
    (assetAt L k).standard = A.standard ∧ (assetAt L k).owner = A.owner ∧
    (assetAt L k).state = A.state ∧ (assetAt L k).delegate = A.delegate ∧
    (assetAt L k).roles = A.roles ∧ (assetAt L k).authority = A.authority ∧
    (assetAt L k).name = A.name ∧ (assetAt L k).mutableByte = A.mutableByte := by
  rw [h.2.2.1]
  exact ⟨rfl, rfl, rfl, rfl, rfl, rfl, rfl, rfl⟩

theorem C03_genesis_partial (h0 : Genesis program L0) (hs : ProperSteps program L0 L)
    (ha : IsAsset program L k) (hsoul : (assetAt L k).standard = 2)
    (hl : SoundLife program k P L L') :
    IsAsset program L' k ∧ (assetAt L' k).owner = (assetAt L k).owner := by
  obtain ⟨A, hA⟩ := born_stores h0 hs ha
  obtain ⟨e1, e2, _⟩ := assetAt_stores hA
  obtain ⟨A', hA', _, h⟩ := C03_soulbound_partial hA (e1.symm.trans hsoul) hl
  obtain ⟨_, f2, _⟩ := assetAt_stores hA'
  exact ⟨hA'.1, by rw [f2, h, e2]⟩

theorem C04_genesis_partial (h0 : Genesis program L0) (hs : ProperSteps program L0 L)
    (ha : IsAsset program L k) (hlock : (assetAt L k).state = 1)
    (hP : ∀ accts i, P accts i → ¬ (i = .unlock ∧ accts.head? = some k))
    (hl : SoundLife program k P L L') :
    IsAsset program L' k ∧ (assetAt L' k).state = 1 ∧
      (assetAt L' k).owner = (assetAt L k).owner ∧
      (assetAt L' k).delegate = (assetAt L k).delegate ∧
      (assetAt L' k).roles = (assetAt L k).roles := by
  obtain ⟨A, hA⟩ := born_stores h0 hs ha
  obtain ⟨_, e2, e3, e4, e5, _⟩ := assetAt_stores hA
  obtain ⟨A', hA', g1, g2, g3, g4⟩ := C04_frozen_partial hP hA (e3.symm.trans hlock) hl
  obtain ⟨_, f2, f3, f4, f5, _⟩ := assetAt_stores hA'
  exact ⟨hA'.1, by rw [f3, g1], by rw [f2, g2, e2], by rw [f4, g3, e4], by rw [f5, g4, e5]⟩

/-- Here the second part of the history is not restricted. -/
theorem C08_genesis_partial (h0 : Genesis program L0) (hs : ProperSteps program L0 L)
    (ha : IsAsset program L k) (hm : (assetAt L k).mutableByte = 0) (hl : Life program k L L') :
    IsAsset program L' k ∧ (assetAt L' k).mutableByte = 0 ∧
      (assetAt L' k).name = (assetAt L k).name ∧
      (assetAt L' k).authority = (assetAt L k).authority ∧
      (assetAt L' k).standard = (assetAt L k).standard ∧
      getExtensions (L' k).data = getExtensions (L k).data := by
  obtain ⟨A, hA⟩ := born_stores h0 hs ha
  obtain ⟨e1, _, _, _, _, e6, e7, e8⟩ := assetAt_stores hA
  obtain ⟨A', hA', g⟩ := C08_immutable_partial hA (e8.symm.trans hm) hl
  obtain ⟨f1, _, _, _, _, f6, f7, f8⟩ := assetAt_stores hA'
  have hsh := C08_shape g
  obtain ⟨g1, g2, g3, g4, _⟩ := g
  refine ⟨hA'.1, by rw [f8, g4, ← e8, hm], by rw [f7, g1, e7], by rw [f6, g2, e6], by rw [f1, g3, e1], ?_⟩
  rw [getExtensions_walk hA.2.2.2.hasExts, getExtensions_walk hA'.2.2.2.hasExts]
  have := congrArg (List.map Prod.fst) hsh
  simp only [List.map_map] at this
  exact congrArg Except.ok this

theorem C09_genesis_partial (h0 : Genesis program L0) (hs : ProperSteps program L0 L)
    (ha : IsAsset program L k)
    (hP : ∀ accts i, P accts i → ¬ (i = .handover ∧ accts.head? = some k))
    (hl : SoundLife program k P L L') :
    IsAsset program L' k ∧ (assetAt L' k).authority = (assetAt L k).authority := by
  obtain ⟨A, hA⟩ := born_stores h0 hs ha
  obtain ⟨_, _, _, _, _, e6, _⟩ := assetAt_stores hA
  obtain ⟨A', hA', h⟩ := C09_history_partial hP hA hl
  obtain ⟨_, _, _, _, _, f6, _⟩ := assetAt_stores hA'
  exact ⟨hA'.1, by rw [f6, h, e6]⟩

theorem C28_genesis_partial (h0 : Genesis program L0) (hs : ProperSteps program L0 L)
    (ha : IsAsset program L k) (hl : SoundLife program k P L L') : IsAsset program L' k := by
  obtain ⟨A, hA⟩ := born_stores h0 hs ha
  obtain ⟨A', hA'⟩ := C28_only_burn_partial hA hl
  exact hA'.1

end

section Examples
open Verif.Ex

/-- Such a history: an immutable soulbound asset with an extension is created; then it is locked by
its owner. -/
example : ∃ L L', ProperSteps prog empties L ∧ IsAsset prog L (k 1) ∧
    (assetAt L (k 1)).standard = 2 ∧ (assetAt L (k 1)).mutableByte = 0 ∧
    SoundLife prog (k 1) (fun _ i => i = .lock) L L' ∧ (assetAt L' (k 1)).state = 1 := by
  let i : Instr := .create ⟨[65], .soulbound, false, some [⟨.blob, 3, some [0, 7, 8]⟩]⟩
  have h : ((run empties [k 1, k 5] createAccts i).bind fun L =>
      (run L [k 2] [k 1, k 2] .lock).map fun L' =>
      (isAssetB L (k 1), (assetAt L (k 1)).standard, (assetAt L (k 1)).mutableByte,
        (assetAt L' (k 1)).state)) = .ok (true, 2, 0, 1) := by decide +kernel
  cases h1 : run empties [k 1, k 5] createAccts i with
  | error => rw [h1] at h; cases h
  | ok L =>
    rw [h1] at h
    obtain ⟨L', h2, h3⟩ := ok_of_map h
    simp only [Prod.mk.injEq] at h3
    obtain ⟨a1, a2, a3, a4⟩ := h3
    refine ⟨L, L', .tail (.refl _) (.instr (env empties [k 1, k 5]) _ i rfl (fun _ => rfl) h1 ?_),
      isAssetB_sound a1, a2, a3, .instr (env L [k 2]) _ .lock (.refl _) rfl h2 (by simp) rfl
      (fun _ _ => trivial), a4⟩
    intro x hx
    have : x = ⟨.blob, 3, some [0, 7, 8]⟩ := by simpa [asked] using hx
    subst this
    exact ⟨⟨by decide, by rintro p ⟨⟩; decide +kernel⟩, by decide⟩

end Examples

end Verif.Props
