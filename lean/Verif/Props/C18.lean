import Verif.Props.C17

/-!
# C18 — verified creators cannot be dropped or unverified by an update
-/

namespace Verif.Props

open Verif Verif.Spec

section
variable {E : Env} {L L' : Ledger} {accts : List Key} {k : Key} {A : Asset}

/-- The update says what the new data is. -/
theorem C18_update_partial {x : UpdateInput} {e : ExtInput} (hs : Stores E.program L k A)
    (h : execute E L accts (.update x) = .ok L') (hk : accts.head? = some k)
    (hx : x.extension = some e) (ht : e.ty = .creators) (hd : e.data ≠ none) :
    ∃ A' q, Stores E.program L' k A' ∧ lookup .creators A'.exts = some q ∧
      (∀ p, lookup .creators A.exts = some p → ∀ o ∈ creatorList p, o.verified ≠ 0 →
        ∃ c ∈ creatorList q, c.address = o.address ∧ c.verified ≠ 0) ∧
      (∀ c ∈ creatorList q, c.verified ≠ 0 →
        (∃ p, lookup .creators A.exts = some p ∧
          ∃ o ∈ creatorList p, o.address = c.address ∧ o.verified ≠ 0) ∨
        (c.address = A.authority ∧ E.signer A.authority = true)) := by
  have hsound : Sound k A accts (.update x) := by
    intro _ e' he'
    rw [hx] at he'; cases he'
    rw [ht]; decide
  rcases refine hs h hsound with ⟨h1, _⟩ | ⟨A', h1, h2⟩
  · cases h1
  · cases h2 with
    | stay _ _ hi => exact absurd hk hi
    | retitle _ _ _ _ _ _ _ _ hx' => rw [hx] at hx'; cases hx'
    | updateFrom _ _ _ _ _ _ _ _ _ _ _ hx' => rw [hx] at hx'; cases hx'
    | memberIn _ _ _ hi => rcases hi with hi | ⟨_, hi⟩ <;> cases hi
    | memberOut _ _ _ hi => rcases hi with hi | hi <;> cases hi
    | update _ _ s rest e' p ha hs' hauth hmut hx' he hp =>
      rw [hx] at hx'; cases hx'
      refine ⟨_, p, h1, by simp only [ht]; exact lookup_setExt_same, ?_⟩
      unfold UpdatesTo at hp
      cases hdd : e.data with
      | none => exact absurd hdd hd
      | some new =>
        rw [hdd] at hp
        simp only [ht] at hp
        refine ⟨fun p' hp' o ho hv => ?_, fun c hc hv => ?_⟩
        · have := hp.1.2.2.2.2.2 o
          rw [hp'] at this
          exact this ho hv
        · rcases accepted_verified hp.1 hc hv with h | h
          · exact Or.inl h
          · cases h
            exact Or.inr ⟨hauth.symm, by rw [hauth]; exact hs'⟩

end

section Examples
open Verif.Ex

/-- Dropping the verified `k 10` is rejected; dropping the unverified `k 11` is not, and a new
creator is unverified unless it is the authority `k 3`. -/
example :
    let upd := fun p => run twoCreators [k 3, k 5] updateAccts
      (.update ⟨none, none, some ⟨.creators, 68, some p⟩⟩)
    (upd (rec (k 11) 0 50 ++ rec (k 12) 0 50)).isOk = false ∧
    ((upd (rec (k 10) 0 50 ++ rec (k 12) 1 50)).map fun L => assetGet .creators (L (k 1)).data) =
      .ok (.ok (some (rec (k 10) 1 50 ++ rec (k 12) 0 50))) ∧
    ((upd (rec (k 10) 0 50 ++ rec (k 3) 0 50)).map fun L => assetGet .creators (L (k 1)).data) =
      .ok (.ok (some (rec (k 10) 1 50 ++ rec (k 3) 1 50))) := by decide +kernel

/-- The full claim is false: an update of length zero without data drops all creators, after
which any other list is accepted. -/
theorem C18_false :
    let dropped := run twoCreators [k 3, k 5] updateAccts
      (.update ⟨none, none, some ⟨.creators, 0, none⟩⟩)
    (dropped.map fun L => assetGet .creators (L (k 1)).data) = .ok (.ok (some [])) ∧
    ((dropped.bind fun L => run L [k 3, k 5] updateAccts
      (.update ⟨none, none, some ⟨.creators, 34, some (rec (k 12) 0 100)⟩⟩)).map fun L =>
        assetGet .creators (L (k 1)).data) = .ok (.ok (some (rec (k 12) 0 100))) := by
  decide +kernel

end Examples
end Verif.Props
