import Verif.Lemmas.Life
import Verif.Lemmas.Privileges
import Verif.Props.C27
import Verif.Props.C29
import Verif.Props.Corrupt

/-!
# C42 — unfinished accounts change only with their own signature
-/

namespace Verif.Props

open Verif Verif.Spec

section
variable {E : Env} {L L' : Ledger} {accts : List Key} {i : Instr} {x : Key}

/-- The first account of every instruction is an initialised asset or has signed. -/
theorem C42_first (h : execute E L accts i = .ok L') (hx : accts.head? = some x) :
    IsAsset E.program L x ∨ E.signer x = true := by
  refine dispatch_first (execute_ok h).2.2.1 ?_
  cases accts with
  | nil => cases hx
  | cons => exact hx

theorem group_needs_asset {a g au : Key} (h : processGroup E L a g au = .ok L') :
    IsAsset E.program L g := by
  unfold processGroup at h
  inv at h
  obtain ⟨_, _, h1, _, _, h2, _⟩ := h
  exact ⟨h1, h2.1, h2.2⟩

theorem ungroup_needs_asset {a g au : Key} (h : processUngroup E L a g au = .ok L') :
    IsAsset E.program L g := by
  unfold processUngroup at h
  inv at h
  obtain ⟨_, _, h1, _, _, h2, _⟩ := h
  exact ⟨h1, h2.1, h2.2⟩

/-- An account that is not an asset and did not sign keeps data, owner and lamports, unless it is
given as the buffer of an Update or as the group of a burned asset. -/
theorem C42_signed_partial (h : execute E L accts i = .ok L') (hn : ¬ IsAsset E.program L x)
    (hs : E.signer x = false) (hu : ∀ y, i = .update y → accts[2]? ≠ some x)
    (hb : i = .burn → accts[3]? ≠ some x) :
    (L' x).data = (L x).data ∧ (L' x).owner = (L x).owner ∧
    (E.program ≠ Key.system → ∀ ks : List Key, ks.Nodup → (∀ y ∈ accts, y ∈ ks) →
      sumLamports L ks < 2 ^ 64 → (L x).lamports ≤ (L' x).lamports) := by
  have h0 : accts.head? ≠ some x := by
    intro hx
    rcases C42_first h hx with h | h
    · exact hn h
    · rw [hs] at h; cases h
  have hd : (L' x).data = (L x).data := by
    by_contra hd
    obtain ⟨p, hp, hx⟩ := C29_data_positions h x hd
    have hp0 : p ≠ 0 := by
      rintro rfl
      apply h0
      cases accts with
      | nil => cases hx
      | cons a as => exact hx
    cases i with
    | burn =>
      have : p = 3 := by simpa [writablePositions, hp0] using hp
      subst this
      exact hb rfl hx
    | update y =>
      have : p = 2 := by simpa [writablePositions, hp0] using hp
      subst this
      exact hu y rfl hx
    | group =>
      obtain ⟨a, g, au, rest, rfl, hq⟩ := exec_group h
      have : p = 1 := by simpa [writablePositions, hp0] using hp
      subst this
      obtain rfl : g = x := by simpa using hx
      exact hn (group_needs_asset hq)
    | ungroup =>
      obtain ⟨a, g, au, rest, rfl, hq⟩ := exec_ungroup h
      have : p = 1 := by simpa [writablePositions, hp0] using hp
      subst this
      obtain rfl : g = x := by simpa using hx
      exact hn (ungroup_needs_asset hq)
    | create y =>
      obtain ⟨a, au, o, g, ga, pp, s, rest, rfl, hq⟩ := exec_create h
      have : p = 3 := by simpa [writablePositions, hp0] using hp
      subst this
      obtain rfl : g = x := by simpa using hx
      obtain ⟨_, L1, L2, d, types, h1, h2, _, _, _, _, h3⟩ := processCreate_inv hq
      obtain ⟨e1, o1, _⟩ := createPrepare_eff h1
      obtain ⟨e2, _⟩ := allocateAll_eff h2 o1
      have hka : g ≠ a := by rintro rfl; exact h0 rfl
      have hda : (L2 g).data = (L g).data ∧ (L2 g).owner = (L g).owner := by
        obtain ⟨q1, q2⟩ := e1.data g hka
        obtain ⟨q3, q4⟩ := e2.data g hka
        exact ⟨q3.trans q1, q4.trans q2⟩
      rcases h3 with ⟨_, rfl⟩ | ⟨g', hg', h3⟩
      · apply hd
        rw [Ledger.setData_other _ _ hka]
        exact hda.1
      · obtain rfl : g' = g := by
          unfold optAcc at hg'
          split at hg'
          · cases hg'
          · cases hg'; rfl
        have := group_needs_asset h3
        unfold IsAsset assetAt at this
        rw [Ledger.setData_other _ _ hka, hda.1, hda.2] at this
        exact hn this
    | _ => simp [writablePositions, hp0] at hp
  refine ⟨hd, ?_, fun hsys ks h1 h2 h3 => ?_⟩
  · by_contra ho
    exact h0 (C29_owner h x ho)
  · by_contra hl
    rcases C27_who_pays h hsys ks h1 h2 h3 x (by omega) with ⟨h4, _⟩ | ⟨h4, _⟩
    · rw [hs] at h4; cases h4
    · exact h0 h4

end

section Examples
open Verif.Ex

/-- A buffer with Grouping data for 5 members, next to an asset that is a group. -/
def bufferOfOther : List (List Key × List Key × Instr) :=
  [([k 1, k 5], createAccts,
      .create ⟨[65], .nonFungible, true, some [⟨.grouping, 16, some (toLE 8 0 ++ toLE 8 3)⟩]⟩),
    ([k 7, k 5], [k 7, k 5, Key.system],
      .allocate ⟨.grouping, 16, some (toLE 8 0 ++ toLE 8 5)⟩)]

/-- The full claim is false: an Update of an asset takes its data from a buffer that did not sign,
and overwrites the buffer's extension header, so that its data is lost. -/
theorem C42_false : ∃ L0 L1 L2 x E accts u, Genesis prog L0 ∧ Steps prog L0 L1 ∧
    E.program = prog ∧ execute E L1 accts (.update u) = .ok L2 ∧ (L1 x).owner = prog ∧
    (assetAt L1 x).disc = 0 ∧ E.signer x = false ∧
    getExtensions (L1 x).data = .ok [.grouping] ∧ getExtensions (L2 x).data = .ok [] := by
  have h : ((runAll bufferOfOther empties).bind fun L1 =>
      (run L1 [k 3] [k 1, k 3, k 7, prog, k 5, Key.system] (.update ⟨none, none, none⟩)).map fun L2 =>
      ((L1 (k 7)).owner, (assetAt L1 (k 7)).disc, getExtensions (L1 (k 7)).data,
        getExtensions (L2 (k 7)).data)) = .ok (prog, 0, .ok [.grouping], .ok []) := by
    decide +kernel
  cases h1 : runAll bufferOfOther empties with
  | error => rw [h1] at h; cases h
  | ok L1 =>
    rw [h1] at h
    obtain ⟨L2, h2, h3⟩ := ok_of_map h
    simp only [Prod.mk.injEq] at h3
    obtain ⟨a1, a2, a3, a4⟩ := h3
    exact ⟨empties, L1, L2, k 7, env L1 [k 3], _, _, empties_genesis, runAll_steps (.refl _) h1, rfl,
      h2, a1, a2, (show [k 3].contains (k 7) = false by decide +kernel), a3, a4⟩

/-- A buffer that takes part in somebody else's Transfer, in the place of the recipient: it keeps its
data. -/
example : ((runAll bufferOfOther empties).bind fun L1 =>
    (run L1 [k 2] [k 1, k 2, k 7, prog] .transfer).map fun L2 =>
    (decide ((L2 (k 7)).data = (L1 (k 7)).data), (assetAt L2 (k 1)).owner)) = .ok (true, k 7) := by
  decide +kernel

end Examples

end Verif.Props
