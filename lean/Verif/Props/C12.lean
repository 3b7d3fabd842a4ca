import Verif.Props.C11

/-!
# C12 — groups do not exceed their limit
-/

namespace Verif.Props

open Verif Verif.Spec

section
variable {E : Env} {L L' : Ledger} {A : Asset} {p : Bytes}

/-- A full group takes no further asset. -/
theorem C12_full {accts : List Key} {g : Key} (h : execute E L accts .group = .ok L')
    (hg : accts[1]? = some g) (hs : Stores E.program L g A)
    (hp : lookup .grouping A.exts = some p) (hl : leNat (slice p 8 8) ≠ 0) :
    leNat (p.take 8) < leNat (slice p 8 8) := by
  obtain ⟨a, g', au, rest, rfl, hx⟩ := exec_group h
  cases hg
  obtain ⟨_, q, hq, _, hlim, _⟩ := group_group hx hs
  obtain rfl : p = q := Option.some.inj (hp.symm.trans hq)
  exact hlim.resolve_left hl

/-- Nor can an asset be created in it. -/
theorem C12_full_create {accts : List Key} {g : Key} {x : CreateInput}
    (h : execute E L accts (.create x) = .ok L') (hg : accts[3]? = some g) (hgp : g ≠ E.program)
    (hs : Stores E.program L g A)
    (hp : lookup .grouping A.exts = some p) (hl : leNat (slice p 8 8) ≠ 0) :
    leNat (p.take 8) < leNat (slice p 8 8) := by
  obtain ⟨a, au, o, g', ga, pa, s, rest, rfl, hx⟩ := exec_create h
  cases hg
  obtain ⟨_, L1, L2, d, types, h1, h2, _, _, _, _, h3⟩ := processCreate_inv hx
  obtain ⟨e1, o1, hprev⟩ := createPrepare_eff h1
  obtain ⟨e2, _⟩ := allocateAll_eff h2 o1
  rcases h3 with ⟨hn, _⟩ | ⟨g', hg', h3⟩
  · rw [show optAcc E g = some g from if_neg hgp] at hn; cases hn
  · rw [show optAcc E g = some g from if_neg hgp] at hg'
    cases hg'
    have hga : g ≠ a := by
      have h3' := h3
      unfold processGroup at h3'
      inv at h3'
      exact h3'.2.2.2.2.1
    have hs' : Stores E.program (L2.setData a (createHeader d o au x)) g A :=
      hs.congr (by rw [Ledger.setData_other _ _ hga, (e2.data g hga).2, (e1.data g hga).2])
        (by rw [Ledger.setData_other _ _ hga, (e2.data g hga).1, (e1.data g hga).1])
    obtain ⟨_, q, hq, _, hlim, _⟩ := group_group h3 hs'
    obtain rfl : p = q := Option.some.inj (hp.symm.trans hq)
    exact hlim.resolve_left hl

/-- An update of the group keeps the number of members, and sets no limit below it. -/
theorem C12_update {k : Key} {rest : List Key} {x : UpdateInput} {e : ExtInput} {new : Bytes}
    (h : execute E L (k :: rest) (.update x) = .ok L') (hs : Stores E.program L k A)
    (hp : lookup .grouping A.exts = some p) (hx : x.extension = some e) (he : e.ty = .grouping)
    (hd : e.data = some new) :
    ∃ A' p', Stores E.program L' k A' ∧ lookup .grouping A'.exts = some p' ∧
      leNat (p'.take 8) = leNat (p.take 8) ∧
      (leNat (slice p' 8 8) = 0 ∨ leNat (p'.take 8) ≤ leNat (slice p' 8 8)) := by
  rcases refine hs h (fun _ e' he' => by
      obtain rfl : e = e' := Option.some.inj (hx.symm.trans he')
      rw [he]; decide) with ⟨hb, _⟩ | ⟨A', hs', hm⟩
  · cases hb
  cases hm with
  | stay _ _ hi => exact absurd rfl hi
  | retitle _ _ _ _ _ _ _ _ hx' => rw [hx] at hx'; cases hx'
  | updateFrom _ _ _ _ _ _ _ _ _ _ _ hx' => rw [hx] at hx'; cases hx'
  | update _ _ s rest e' q _ _ _ _ hx' _ hq =>
    obtain rfl : e = e' := Option.some.inj (hx.symm.trans hx')
    unfold UpdatesTo at hq
    rw [hd] at hq
    simp only at hq
    rw [he, hp] at hq
    refine ⟨_, q, hs', by rw [he]; exact lookup_setExt_same, ?_⟩
    obtain ⟨h1, _, h3⟩ := hq.1
    simp only at h3
    obtain ⟨h4, rfl, h5⟩ := h3
    have hm := membersOf_with (p := new) (membersOf_lt h4)
    have hl := limitOf_with (p := new) (membersOf p)
    unfold membersOf at hm hl h5 ⊢
    unfold limitOf at hl h5
    rw [hm, hl]
    exact ⟨rfl, h5⟩
  | memberIn _ _ _ hi => rcases hi with hi | ⟨_, hi⟩ <;> cases hi
  | memberOut _ _ _ hi => rcases hi with hi | hi <;> cases hi

end

/-- Along any history of instructions used as intended, from a ledger in which the program owns
nothing: no group records more members than its limit, unless the limit is 0 (none).

The full claim has no condition on the instructions; it is refuted below. -/
theorem C12_limit_partial {program : Key} {L0 L : Ledger} (h0 : Genesis program L0)
    (hs : CountedSteps program L0 L) {g : Key} (hg : g ≠ Key.default) {A : Asset} {p : Bytes}
    (hA : Stores program L g A) (hp : lookup .grouping A.exts = some p) :
    leNat (slice p 8 8) = 0 ∨ leNat (p.take 8) ≤ leNat (slice p 8 8) :=
  (kept_steps h0.consistent hs).2 h0.limited g p hg ⟨A, hA, hp⟩

/-- Nor does it have more. -/
theorem C12_members_partial {program : Key} {L0 L : Ledger} (h0 : Genesis program L0)
    (hs : CountedSteps program L0 L) {g : Key} (hg : g ≠ Key.default) {A : Asset} {p : Bytes}
    (hA : Stores program L g A) (hp : lookup .grouping A.exts = some p)
    (hl : leNat (slice p 8 8) ≠ 0) {ms : List Key} (hn : ms.Nodup)
    (hms : ∀ k ∈ ms, IsAsset program L k ∧ (assetAt L k).group = g) :
    ms.length ≤ leNat (slice p 8 8) := by
  obtain ⟨ns, h1, h2, h3⟩ := C11_census_partial h0 hs hg hA hp
  have := (C12_limit_partial h0 hs hg hA hp).resolve_left hl
  have := (List.Nodup.subperm hn fun x hx => (h2 x).mpr (hms x hx)).length_le
  omega

section Examples
open Verif.Ex

/-- The history of `twoCreates_counted` ends in a group with room for one more. -/
example : (twoCreates.map fun L => (assetGet .grouping (L (k 1)).data).map (Option.map fun p =>
    (leNat (p.take 8), leNat (slice p 8 8)))) = .ok (.ok (some (1, 2))) := by decide +kernel

/-- A third member is refused. -/
example : (twoCreates.bind fun L =>
    (run L [k 8, k 3, k 5] [k 8, k 3, k 2, k 1, prog, k 5, Key.system] makeMember).bind fun L =>
    (run L [k 9, k 3, k 5] [k 9, k 3, k 2, k 1, prog, k 5, Key.system] makeMember).map
      fun _ => ()) = .error (.asset .extensionDataInvalid) := by decide +kernel

/-- The limit may be lowered to the number of members, and not below. -/
example :
    (twoCreates.bind fun L => (run L [k 3, k 5] [k 1, k 3, prog, prog, k 5, Key.system]
      (.update ⟨none, none, some ⟨.grouping, 16, some (groupBytes 0 1)⟩⟩)).map fun L =>
        assetGet .grouping (L (k 1)).data) = .ok (.ok (some (groupBytes 1 1))) ∧
    (twoCreates.bind fun L =>
      (run L [k 8, k 3, k 5] [k 8, k 3, k 2, k 1, prog, k 5, Key.system] makeMember).bind fun L =>
      (run L [k 3, k 5] [k 1, k 3, prog, prog, k 5, Key.system]
      (.update ⟨none, none, some ⟨.grouping, 16, some (groupBytes 0 1)⟩⟩)).map fun _ => ()) =
        .error (.asset .extensionDataInvalid) := by decide +kernel

/-- The full claim is false: after an update from a buffer the group records five members of at
most two. -/
theorem C12_false : ∃ L0 L g, Genesis prog L0 ∧ Steps prog L0 L ∧ g ≠ Key.default ∧
    ∃ p, assetGet .grouping (L g).data = .ok (some p) ∧ leNat (slice p 8 8) = 2 ∧
      leNat (p.take 8) = 5 := by
  have h : ((forgeSize 5 2).map fun L => assetGet .grouping (L (k 1)).data) =
      .ok (.ok (some (groupBytes 5 2))) := by decide +kernel
  obtain ⟨L, h1, h2⟩ := ok_of_map h
  exact ⟨empties, L, k 1, empties_genesis, (forgeSize_steps h1).1, by decide +kernel,
    groupBytes 5 2, h2, by decide +kernel, by decide +kernel⟩

end Examples

end Verif.Props
