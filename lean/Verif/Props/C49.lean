import Verif.Props.C48
import Verif.Props.C20

/-!
# C49 — nobody can keep the owner from moving an unlocked asset
-/

namespace Verif.Props

open Verif Verif.Spec

section
variable {E : Env} {L L' : Ledger} {k s : Key} {A : Asset} {rest : List Key}

/-- The royalties, if any, can be read. -/
def RoyaltiesReadable (A : Asset) : Prop :=
  ∀ p, lookup .royalties A.exts = some p → 8 ≤ p.length ∧ ∃ c, parseConstraint (p.drop 8) = .ok c

/-- The owner of an unlocked asset that is not soulbound can transfer it to any wallet, whatever
the royalties say, provided they are readable; if the asset belongs to a group and has no
royalties of its own, the group must be an unlocked asset with readable royalties. -/
theorem C49_transfer_partial {r : Key} (hs : Stores E.program L k A) (hu : Usable E k A)
    (hm : ManagerReadable A) (hsig : E.signer A.owner = true) (hlock : A.state ≠ 1)
    (hsoul : A.standard ≠ 2) (hroy : RoyaltiesReadable A)
    (hcpi : E.inCpi = false) (ho : (L A.owner).owner = Key.system)
    (hr : (L r).owner = Key.system) (hp : E.program ≠ Key.system)
    (hpc : Calm E.program L E.program)
    (hgrp : A.group = Key.default ∨ lookup .royalties A.exts ≠ none ∨
      (A.group ≠ k ∧ A.group ≠ E.program ∧
        ∃ G, Stores E.program L A.group G ∧ G.state ≠ 1 ∧ RoyaltiesReadable G)) :
    ∃ L' g, execute E L [k, A.owner, r, g] .transfer = .ok L' ∧
      (A.owner ≠ r → Stores E.program L' k
        { A with owner := r, delegate := Key.default, roles := 0 }) := by
  have hwal : ∀ x, (L x).owner = Key.system → Calm E.program L x := by
    intro x hx h
    rw [hx] at h
    exact absurd h.symm hp
  have hallow : ∀ B, RoyaltiesReadable B → RoyaltiesAllow E L k A.owner r B := by
    intro B hB p hp
    obtain ⟨h1, c, h2⟩ := hB p hp
    exact ⟨h1, c, h2, Or.inl ⟨hcpi, ho, hr⟩⟩
  by_cases hg : A.group = Key.default ∨ lookup .royalties A.exts ≠ none
  · obtain ⟨L', h⟩ := C48_transfer (g := E.program) (r := r) (rest := []) hs hu hm
      (by intro x hx
          simp only [List.mem_cons, List.not_mem_nil, or_false] at hx
          rcases hx with rfl | rfl | rfl
          · exact hwal _ ho
          · exact hwal _ hr
          · exact hpc)
      hsig (Or.inl rfl) hlock hsoul (hallow A hroy)
      (fun h1 h2 => by
        rcases hg with h | h
        · exact absurd h h1
        · exact absurd h2 h)
    exact ⟨L', _, h⟩
  · obtain ⟨h1, h2⟩ := not_or.mp hg
    obtain ⟨e1, e2, G, e3, e4, e5⟩ := (hgrp.resolve_left h1).resolve_left h2
    obtain ⟨L', h⟩ := C48_transfer (g := A.group) (r := r) (rest := []) hs hu hm
      (by intro x hx
          simp only [List.mem_cons, List.not_mem_nil, or_false] at hx
          rcases hx with rfl | rfl | rfl
          · exact hwal _ ho
          · exact hwal _ hr
          · exact calm_stores e3 e4)
      hsig (Or.inl rfl) hlock hsoul (hallow A hroy)
      (fun _ _ => ⟨rfl, e1, e2, G, e3, hallow G e5⟩)
    exact ⟨L', _, h⟩

/-- A locked group: nobody can burn its members, nor transfer those without royalties of their
own. -/
theorem C49_locked_group {accts : List Key} {G : Asset} (hs : Stores E.program L k A)
    (hk : accts.head? = some k) (hg : A.group ≠ Key.default) (hG : Stores E.program L A.group G)
    (hl : G.state = 1) :
    (∀ L', execute E L accts .burn ≠ .ok L') ∧
    (lookup .royalties A.exts = none → accts[2]? ≠ some A.owner →
      ∀ L', execute E L accts .transfer ≠ .ok L') := by
  constructor
  · intro L' h
    obtain ⟨a, b, r, g, rest, rfl, hp⟩ := exec_burn h
    obtain rfl : a = k := by simpa using hk
    unfold processBurn at hp
    inv at hp
    obtain ⟨_, _, _, _, _, _, L1, hb, _⟩ := hp
    unfold burnGroup at hb
    rw [hs.group_eq] at hb
    unfold nullable at hb
    rw [if_neg hg] at hb
    simp only at hb
    unfold optAcc at hb
    split at hb
    · rename_i hno
      split at hno
      · cases hb
      · cases hno
    · rename_i ga hga
      split at hga
      · cases hga
      · cases hga
        inv at hb
        obtain ⟨e, _⟩ := hb
        subst e
        exact hG.unlocked h rfl (by simp) hl
  · intro hr ho L' h
    obtain ⟨a, b, r, g, rest, rfl, hp⟩ := exec_transfer h
    obtain rfl : a = k := by simpa using hk
    have := (C20_group h (hr ▸ reads_lookup hs.hasExts (by decide))
      (by rw [← show A.group = (assetAt L a).group by rw [hs.2.2.1]; rfl]; exact hg)
      (by rw [← show A.owner = (assetAt L a).owner by rw [hs.2.2.1]; rfl]
          intro hh
          exact ho (by simp [hh]))).1
    rw [← show A.group = (assetAt L a).group by rw [hs.2.2.1]; rfl] at this
    simp only [List.head?_cons, Option.some.injEq] at this
    subst this
    exact hG.unlocked h rfl (by simp) hl

end

section Examples
open Verif.Ex

/-- The hypotheses of `C49_transfer_partial` are met for a member of a group with royalties: the
owner can give it to the wallet `k 4`. -/
example : ∃ L' g, execute (env market [k 2]) market [k 9, k 2, k 4, g] .transfer = .ok L' ∧
    (k 2 ≠ k 4 → Stores prog L' (k 9) ⟨0, 0, 1, k 4, k 8, k 3, Key.default, 0, podStr35 [65], []⟩) :=
  C49_transfer_partial (E := env market [k 2])
    (A := ⟨0, 0, 1, k 2, k 8, k 3, Key.default, 0, podStr35 [65], []⟩)
    (checkStores_sound (by decide +kernel)) ⟨rfl, by decide⟩ (by intro p h; cases h)
    (by decide +kernel) (by decide) (by decide) (by intro p h; cases h) rfl (by decide +kernel)
    (by decide +kernel) (by decide +kernel) (by decide +kernel)
    (Or.inr (Or.inr ⟨by decide +kernel, by decide +kernel,
      ⟨0, 0, 1, k 2, Key.default, k 3, Key.default, 0, podStr35 [65],
        [(.grouping, toLE 8 1 ++ toLE 8 0 ++ zeros 32), (.royalties, gated)]⟩,
      checkStores_sound (by decide +kernel), by decide, by
        intro p h
        obtain rfl : gated = p := by
          simpa [lookup] using h
        refine ⟨by decide +kernel, .not (.pubkeyMatch 2 [k 7]), ?_⟩
        · have : gated.drop 8 = buildC (.not (.pubkeyMatch 2 [k 7])) := by decide +kernel
          rw [this]
          exact C22_parse_build _ (by simp [SelectorsFit]) (by decide +kernel)⟩))

/-- The owner of the group (`k 5`, who has no rights to the member `k 8`) locks it. -/
def clubLocked : Ledger :=
  match run club [k 5] [k 9, k 5] .lock with
  | .ok L' => L'
  | .error _ => club

/-- The negation: the owner `k 2` of an unlocked asset, whom nobody asked, can neither transfer nor
burn it any more after a stranger has locked its group. -/
theorem C49_false :
    (∃ L', execute (env club [k 2]) club [k 8, k 2, k 4, k 9] .transfer = .ok L') ∧
    execute (env club [k 5]) club [k 9, k 5] .lock = .ok clubLocked ∧
    (∃ A, Stores prog clubLocked (k 8) A ∧ A.state = 0 ∧ A.owner = k 2 ∧ A.standard = 0) ∧
    ∀ E L' s r g, E.program = prog →
      (r ≠ k 2 → execute E clubLocked [k 8, s, r, g] .transfer ≠ .ok L') ∧
      execute E clubLocked [k 8, s, r, g] .burn ≠ .ok L' := by
  have h8 : Stores prog clubLocked (k 8) clubMember := checkStores_sound (by decide +kernel)
  have h9 : Stores prog clubLocked (k 9) { clubGroup with state := 1 } :=
    checkStores_sound (by decide +kernel)
  refine ⟨?_, ?_, ⟨clubMember, h8, rfl, rfl, rfl⟩, ?_⟩
  · have : (run club [k 2] [k 8, k 2, k 4, k 9] .transfer).isOk = true := by decide +kernel
    unfold run at this
    cases h : execute (env club [k 2]) club [k 8, k 2, k 4, k 9] .transfer with
    | ok L' => exact ⟨L', rfl⟩
    | error e => rw [h] at this; cases this
  · have : (run club [k 5] [k 9, k 5] .lock).isOk = true := by decide +kernel
    unfold clubLocked
    unfold run at this ⊢
    cases h : execute (env club [k 5]) club [k 9, k 5] .lock with
    | ok L' => rfl
    | error e => rw [h] at this; cases this
  · intro E L' s r g hE
    obtain ⟨h1, h2⟩ := C49_locked_group (E := E) (L := clubLocked) (A := clubMember)
      (accts := [k 8, s, r, g]) (hE ▸ h8) rfl (by decide +kernel) (hE ▸ h9) rfl
    exact ⟨fun hr => h2 rfl (by simpa [clubMember] using hr) L', h1 L'⟩

/-- The ledger after the authority replaced the royalties by nothing at all. -/
def bricked : Ledger :=
  match run market [k 3, k 5] [k 1, k 3, prog, prog, k 5, Key.system]
      (.update ⟨none, none, some ⟨.royalties, 0, none⟩⟩) with
  | .ok L' => L'
  | .error _ => market

/-- The authority replaces the royalties by nothing at all, which is accepted, since an update
without data is not validated; after that every transfer to another owner panics. -/
theorem C49_false_royalties :
    execute (env market [k 3, k 5]) market [k 1, k 3, prog, prog, k 5, Key.system]
        (.update ⟨none, none, some ⟨.royalties, 0, none⟩⟩) = .ok bricked ∧
    (∃ A, Stores prog bricked (k 1) A ∧ A.owner = k 2 ∧ A.state = 0 ∧ A.standard = 0) ∧
    ∀ E L' accts, E.program = prog → accts.head? = some (k 1) →
      execute E bricked accts .transfer ≠ .ok L' := by
  have hs : Stores prog bricked (k 1) ⟨0, 0, 1, k 2, Key.default, k 3, Key.default, 0,
      podStr35 [65], [(.royalties, [])]⟩ := checkStores_sound (by decide +kernel)
  refine ⟨?_, ⟨_, hs, rfl, rfl, rfl⟩, ?_⟩
  · have : (run market [k 3, k 5] [k 1, k 3, prog, prog, k 5, Key.system]
      (.update ⟨none, none, some ⟨.royalties, 0, none⟩⟩)).isOk = true := by decide +kernel
    unfold bricked
    unfold run at this ⊢
    cases h : execute (env market [k 3, k 5]) market [k 1, k 3, prog, prog, k 5, Key.system]
        (.update ⟨none, none, some ⟨.royalties, 0, none⟩⟩) with
    | ok L' => rfl
    | error e => rw [h] at this; cases this
  · intro E L' accts _ hk h
    obtain ⟨a, b, r, g, rest, rfl, hp⟩ := exec_transfer h
    obtain rfl : a = k 1 := by simpa using hk
    unfold processTransfer at hp
    inv at hp
    obtain ⟨_, _, _, x, hx, _⟩ := hp
    unfold processRoyalties at hx
    rw [hs.get (by decide)] at hx
    exact absurd hx (by
      simp only [lookup, if_true, bind, Except.bind]
      have : readRoyalties [] = .error .panic := rfl
      rw [this]
      simp)

end Examples
end Verif.Props
