import Mathlib.Data.List.Perm.Subperm
import Verif.Lemmas.Census
import Verif.Props.C41

/-!
# C11 — the recorded size of a group is the number of its members
-/

namespace Verif.Props

open Verif Verif.Spec

/-- Along any history of instructions used as intended, from a ledger in which the program owns
nothing: the size recorded in a group is the number of assets that reference it.

The full claim has no condition on the instructions; it is refuted below. -/
theorem C11_census_partial {program : Key} {L0 L : Ledger} (h0 : Genesis program L0)
    (hs : CountedSteps program L0 L) {g : Key} (hg : g ≠ Key.default) {A : Asset} {p : Bytes}
    (hA : Stores program L g A) (hp : lookup .grouping A.exts = some p) :
    ∃ ms : List Key, ms.Nodup ∧
      (∀ k, k ∈ ms ↔ IsAsset program L k ∧ (assetAt L k).group = g) ∧
      leNat (p.take 8) = ms.length := by
  obtain ⟨ms, ⟨h1, h2⟩, h3, _⟩ := (kept_steps h0.consistent hs).1.2 g hg
  exact ⟨ms, h1, h2, (h3 p ⟨A, hA, hp⟩).2⟩

/-- The same from any consistent ledger. -/
theorem C11_step_partial {program : Key} {L L' : Ledger} (hc : Consistent program L)
    (hs : CountedSteps program L L') : Consistent program L' := (kept_steps hc hs).1

/-- What an asset references is a group that counts it. -/
theorem C11_member_partial {program : Key} {L0 L : Ledger} (h0 : Genesis program L0)
    (hs : CountedSteps program L0 L) {k : Key} (hk : IsAsset program L k)
    (hg : (assetAt L k).group ≠ Key.default) :
    ∃ A p, Stores program L (assetAt L k).group A ∧ lookup .grouping A.exts = some p ∧
      leNat (p.take 8) ≠ 0 := by
  obtain ⟨ms, ⟨h1, h2⟩, h3, h4⟩ := (kept_steps h0.consistent hs).1.2 _ hg
  have hm : k ∈ ms := (h2 k).mpr ⟨hk, rfl⟩
  obtain ⟨p, A, hA, hp⟩ := h4 (List.ne_nil_of_mem hm)
  refine ⟨A, p, hA, hp, ?_⟩
  rw [show leNat (p.take 8) = ms.length from (h3 p ⟨A, hA, hp⟩).2]
  exact Nat.ne_of_gt (List.length_pos_of_mem hm)

section Examples
open Verif.Ex

theorem owned_step {E : Env} {L L' : Ledger} {accts ks : List Key} {i : Instr}
    (h : execute E L accts i = .ok L') (hk : ∀ x, (L x).owner = E.program → x ∈ ks) :
    ∀ x, (L' x).owner = E.program → x ∈ accts ++ ks := by
  intro x hx
  by_cases hn : (L x).owner = E.program
  · exact List.mem_append_right _ (hk x hn)
  · exact List.mem_append_left _ (newly_owned h hx hn).1

theorem roll_small {program : Key} {L : Ledger} {ks ms : List Key} {g : Key}
    (hk : ∀ x, (L x).owner = program → x ∈ ks) (h : Roll program L g ms) :
    ms.length ≤ ks.length :=
  (List.Nodup.subperm h.1 fun x hx => hk x ((h.2 x).mp hx).1.1).length_le

/-- Grouping data: size and limit. -/
def groupBytes (n m : Nat) : Bytes := toLE 8 n ++ toLE 8 m

/-- Creating a group that may have two members. -/
def makeGroup : Instr := .create ⟨[71], .nonFungible, true, some [⟨.grouping, 16, some (groupBytes 0 2)⟩]⟩

/-- Creating an asset. -/
def makeMember : Instr := .create ⟨[77], .nonFungible, true, none⟩

/-- A group is created, then an asset in it. -/
def twoCreates : Except Err Ledger :=
  (run empties [k 1, k 3, k 5] [k 1, k 3, k 2, prog, prog, k 5, Key.system] makeGroup).bind fun L =>
    run L [k 7, k 3, k 5] [k 7, k 3, k 2, k 1, prog, k 5, Key.system] makeMember

example : (twoCreates.map fun L => (assetGet .grouping (L (k 1)).data, (assetAt L (k 7)).group)) =
    .ok (.ok (some (groupBytes 1 2)), k 1) := by decide +kernel

/-- It is a history of the theorem. -/
theorem twoCreates_counted : ∃ L, twoCreates = .ok L ∧ CountedSteps prog empties L := by
  have h : (twoCreates.map fun _ => ()) = .ok () := by decide +kernel
  unfold twoCreates at h ⊢
  cases h1 : run empties [k 1, k 3, k 5] [k 1, k 3, k 2, prog, prog, k 5, Key.system] makeGroup with
  | error => rw [h1] at h; cases h
  | ok L1 =>
    rw [h1] at h
    obtain ⟨L, h2, _⟩ := ok_of_map h
    have o0 : ∀ x, (empties x).owner = prog → x ∈ ([] : List Key) :=
      fun x hx => absurd hx (empties_genesis x)
    have o1 := owned_step h1 o0
    have o2 := owned_step h2 o1
    refine ⟨L, h2, .tail (.tail (.refl _) (.instr (env empties [k 1, k 3, k 5]) _ _ rfl
      (fun _ => rfl) h1 ?_ (by rintro x e ⟨⟩) ?_)) (.instr (env L1 [k 7, k 3, k 5]) _ _ rfl
      (fun _ => rfl) h2 ?_ (by rintro x e ⟨⟩) ?_)⟩
    · intro x hx
      have : x = ⟨.grouping, 16, some (groupBytes 0 2)⟩ := by simpa [asked] using hx
      subst this
      exact ⟨⟨by decide, by rintro p ⟨⟩; decide +kernel⟩, by decide⟩
    · intro g ms hms
      exact Nat.lt_of_le_of_lt (roll_small o1 hms) (by decide)
    · intro x hx
      simp [asked] at hx
    · intro g ms hms
      exact Nat.lt_of_le_of_lt (roll_small o2 hms) (by decide)

/-- An update of the group from a buffer with the given Grouping data. -/
def forgeSize (n m : Nat) : Except Err Ledger :=
  (run empties [k 1, k 3, k 5] [k 1, k 3, k 2, prog, prog, k 5, Key.system] makeGroup).bind fun L1 =>
  (run L1 [k 7, k 5] [k 7, k 5, Key.system]
    (.allocate ⟨.grouping, 16, some (groupBytes n m)⟩)).bind fun L2 =>
  run L2 [k 3, k 5] [k 1, k 3, k 7, prog, k 5, Key.system] (.update ⟨none, none, none⟩)

/-- The accounts of these instructions. -/
def forgeKeys : List Key := [k 1, k 3, k 7, prog, k 5, Key.system] ++ ([k 7, k 5, Key.system] ++
  ([k 1, k 3, k 2, prog, prog, k 5, Key.system] ++ []))

theorem forgeSize_steps {n m : Nat} {L : Ledger} (h : forgeSize n m = .ok L) :
    Steps prog empties L ∧ ∀ x, (L x).owner = prog → x ∈ forgeKeys := by
  unfold forgeSize at h
  cases h1 : run empties [k 1, k 3, k 5] [k 1, k 3, k 2, prog, prog, k 5, Key.system] makeGroup with
  | error => rw [h1] at h; cases h
  | ok L1 =>
    rw [h1] at h
    have h : ((run L1 [k 7, k 5] [k 7, k 5, Key.system]
      (.allocate ⟨.grouping, 16, some (groupBytes n m)⟩)).bind fun L2 =>
      run L2 [k 3, k 5] [k 1, k 3, k 7, prog, k 5, Key.system] (.update ⟨none, none, none⟩)) =
      .ok L := h
    cases h2 : run L1 [k 7, k 5] [k 7, k 5, Key.system]
      (.allocate ⟨.grouping, 16, some (groupBytes n m)⟩) with
    | error => rw [h2] at h; cases h
    | ok L2 =>
      rw [h2] at h
      have o0 : ∀ x, (empties x).owner = prog → x ∈ ([] : List Key) :=
        fun x hx => absurd hx (empties_genesis x)
      have o1 := owned_step h1 o0
      have o2 := owned_step h2 o1
      have o3 := owned_step h o2
      refine ⟨.tail _ _ _ (.tail _ _ _ (.tail _ _ _ (.refl _)
        (.instr (env empties [k 1, k 3, k 5]) _ _ _ _ rfl (fun _ => rfl) h1))
        (.instr (env L1 [k 7, k 5]) _ _ _ _ rfl (fun _ => rfl) h2))
        (.instr (env L2 [k 3, k 5]) _ _ _ _ rfl (fun _ => rfl) h), o3⟩

/-- The full claim is false: after an update from a buffer the group records five members and
has none. -/
theorem C11_false : ∃ L0 L g, Genesis prog L0 ∧ Steps prog L0 L ∧ g ≠ Key.default ∧
    assetGet .grouping (L g).data = .ok (some (groupBytes 5 2)) ∧
    ∀ x, ¬ (IsAsset prog L x ∧ (assetAt L x).group = g) := by
  have h : ((forgeSize 5 2).map fun L => (assetGet .grouping (L (k 1)).data,
      forgeKeys.all fun x => decide ((assetAt L x).group ≠ k 1))) =
      .ok (.ok (some (groupBytes 5 2)), true) := by decide +kernel
  obtain ⟨L, h1, h2⟩ := ok_of_map h
  simp only [Prod.mk.injEq] at h2
  obtain ⟨h3, h4⟩ := forgeSize_steps h1
  refine ⟨empties, L, k 1, empties_genesis, h3, by decide +kernel, h2.1, ?_⟩
  rintro x ⟨hx, hg⟩
  have := List.all_eq_true.mp h2.2 x (h4 x hx.1)
  exact absurd hg (of_decide_eq_true this)

end Examples

end Verif.Props
