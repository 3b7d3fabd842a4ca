import Verif.Lemmas.Strangers
import Verif.Props.C01
import Verif.Props.C74
import Verif.Props.C76
import Mathlib.Data.List.Dedup

/-!
# C77: Strangers cannot change an asset
-/

namespace Verif.Props

open Verif Verif.Spec

section
variable {E : Env} {program k : Key} {L L' : Ledger} {accts : List Key} {A A' : Asset} {i : Instr}

/-- An instruction that nobody signs who has a say in the asset leaves the asset as it is, whatever the
instruction and its accounts, up to the number of members, if the asset is a group, and up to the
group it belongs to: it can be put into a group if it is in none, and its group can let it go. -/
theorem C77_step_partial (hs : Stores E.program L k A) (ho : Outside E A)
    (h : execute E L accts i = .ok L') :
    ∃ A', Stores E.program L' k A' ∧ SameAsset A A' ∧ (A'.group ≠ A.group →
      (i = .group ∧ A.group = Key.default ∧ ∃ s rest, accts = k :: A'.group :: s :: rest ∧ E.signer s = true) ∨
      (i = .ungroup ∧ A'.group = Key.default ∧
        ∃ s rest, accts = k :: A.group :: s :: rest ∧ E.signer s = true)) := by
  rcases refine hs h (sound_outside hs (ho _ (.inr (.inl rfl))) h) with ⟨rfl, h1, _⟩ | ⟨A', h1, h2⟩
  · exact (burn_outside hs ho h h1).elim
  · exact ⟨A', h1, move_outside h2 ho⟩

/-- Hence over any history. -/
theorem C77_history_partial (hs : Stores program L k A) (hl : Strangers program A L L') :
    ∃ A', Stores program L' k A' ∧ SameAsset A A' := by
  induction hl with
  | refl => exact ⟨A, hs, .refl _⟩
  | instr E accts i _ hp h ho ih =>
    obtain ⟨B, h1, h2⟩ := ih
    subst hp
    obtain ⟨A', h3, h4, _⟩ := C77_step_partial h1 (h2.outside ho) h
    exact ⟨A', h3, h2.trans h4⟩
  | foreign _ hf ih =>
    obtain ⟨B, h1, h2⟩ := ih
    exact ⟨B, h1.foreign hf, h2⟩

/-- In particular owner, authority, delegate, state, standard, mutability, name and all extensions
but Grouping are the same. -/
theorem C77_kept_partial (hs : Stores program L k A) (hs' : Stores program L' k A')
    (hl : Strangers program A L L') :
    A'.owner = A.owner ∧ A'.authority = A.authority ∧ A'.delegate = A.delegate ∧ A'.roles = A.roles ∧
    A'.state = A.state ∧ A'.standard = A.standard ∧ A'.mutableByte = A.mutableByte ∧ A'.name = A.name ∧
    ∀ t, t ≠ .grouping → lookup t A'.exts = lookup t A.exts := by
  obtain ⟨B, h1, g, es, rfl, h2⟩ := C77_history_partial hs hl
  obtain rfl := hs'.unique h1
  exact ⟨rfl, rfl, rfl, rfl, rfl, rfl, rfl, rfl, fun t ht => h2.lookup ht⟩

/-- Nor do strangers take lamports from it. -/
theorem C77_funds_partial (hs : Stores E.program L k A) (ho : Outside E A)
    (h : execute E L accts i = .ok L') (hsys : E.program ≠ Key.system) (hu : Supply L) :
    (L k).lamports ≤ (L' k).lamports := by
  by_contra hlt
  have no : ∀ x, A.Entitled x → E.signer x = true → False := by
    intro x h1 h2
    rw [ho x h1] at h2
    cases h2
  have hau : hAuthority (L k).data = A.authority := by rw [hs.2.2.1]; rfl
  have hset : ∀ (M : Ledger) (y : Key) (d : Bytes) (z : Key), ((M.setData y d) z).lamports = (M z).lamports := by
    intro M y d z
    by_cases hz : z = y
    · subst hz; rw [Ledger.setData_same]
    · rw [Ledger.setData_other _ _ hz]
  have hk : accts.head? = some k := by
    rcases C27_who_pays h hsys accts.dedup (List.nodup_dedup _) (fun x hx => List.mem_dedup.mpr hx)
      (by rw [sumLamports_eq]; exact hu _ (List.nodup_dedup _)) k (by omega) with ⟨_, h1⟩ | ⟨h1, _⟩
    · exact absurd (hs.1.1.symm.trans h1) hsys
    · exact h1
  have hsame : (L' k).lamports = (L k).lamports → False := fun h => hlt (by omega)
  have hkeep : i = .group ∨ i = .ungroup ∨ i = .verify ∨ i = .unverify → False := by
    rintro (rfl | rfl | rfl | rfl)
    · obtain ⟨a, g, au, rest, rfl, hp⟩ := exec_group h
      unfold processGroup at hp
      inv at hp
      obtain ⟨_, _, _, _, _, _, _, _, r, _, hp⟩ := hp
      cases r with
      | none => cases hp
      | some r =>
        inv at hp
        obtain ⟨_, _, _, _, rfl⟩ := hp
        exact hsame (by rw [hset, hset])
    · obtain ⟨a, g, au, rest, rfl, hp⟩ := exec_ungroup h
      unfold processUngroup at hp
      inv at hp
      obtain ⟨_, _, _, _, _, _, _, r, _, hp⟩ := hp
      cases r with
      | none => cases hp
      | some r =>
        inv at hp
        obtain ⟨_, _, _, rfl⟩ := hp
        exact hsame (by rw [hset, hset])
    · obtain ⟨a, s, rest, rfl, hp⟩ := exec_verify h
      unfold processVerify processSetVerified at hp
      inv at hp
      obtain ⟨_, _, _, r, _, hp⟩ := hp
      cases r with
      | none => cases hp
      | some r =>
        inv at hp
        obtain ⟨_, _, _, rfl⟩ := hp
        exact hsame (by rw [hset])
    · obtain ⟨a, s, rest, rfl, hp⟩ := exec_unverify h
      unfold processUnverify processSetVerified at hp
      inv at hp
      obtain ⟨_, _, _, r, _, hp⟩ := hp
      cases r with
      | none => cases hp
      | some r =>
        inv at hp
        obtain ⟨_, _, _, rfl⟩ := hp
        exact hsame (by rw [hset])
  have hown : hOwner (L k).data = A.owner := by rw [hs.2.2.1]; rfl
  have hdel : hDelegate (L k).data = A.delegate := by rw [hs.2.2.1]; rfl
  rcases refine hs h (sound_outside hs (ho _ (.inr (.inl rfl))) h) with ⟨rfl, h1, _⟩ | ⟨A', h1, h2⟩
  · exact burn_outside hs ho h h1
  · cases h2 with
    | stay _ _ hi =>
      cases i with
      | transfer =>
        obtain ⟨_, s, _, _, _, rfl, _, h2, h3⟩ := C01_transfer_authorised h
        obtain rfl := Option.some.inj hk
        rcases h3 with h3 | h3
        · exact no _ (.inl (h3.symm.trans hown)) h2
        · exact no _ (entitled_delegated (hs.delegated h3)) h2
      | revoke x =>
        obtain ⟨a, s, rest, rfl, hp⟩ := exec_revoke h
        obtain rfl := Option.some.inj hk
        unfold processRevoke at hp
        inv at hp
        obtain ⟨h2, _, _, h3, _⟩ := hp
        rw [hown, hdel] at h3
        rcases h3 with rfl | ⟨h3, rfl⟩
        · exact no _ (.inl rfl) h2
        · exact no _ (.inr (.inr (.inl ⟨h3, rfl⟩))) h2
      | resize x =>
        obtain ⟨a, au, p, y, rest, rfl, hp⟩ := exec_resize h
        obtain rfl := Option.some.inj hk
        unfold processResize at hp
        inv at hp
        exact no _ (.inr (.inl (hp.2.2.2.1.symm.trans hau))) hp.1
      | group => exact hkeep (.inl rfl)
      | ungroup => exact hkeep (.inr (.inl rfl))
      | verify => exact hkeep (.inr (.inr (.inl rfl)))
      | unverify => exact hkeep (.inr (.inr (.inr rfl)))
      | _ => exact hi hk
    | transfer _ s r rest ha hs hauth =>
      rcases hauth with rfl | h
      · exact no _ (.inl rfl) hs
      · exact no _ (entitled_delegated h) hs
    | approve _ x o d roles rest ha hs ho => exact no _ (.inl ho.symm) hs
    | revoke _ x s d roles rest ha hs hauth =>
      rcases hauth with rfl | ⟨h1, rfl⟩
      · exact no _ (.inl rfl) hs
      · exact no _ (.inr (.inr (.inl ⟨h1, rfl⟩))) hs
    | lock _ s rest ha hs hauth =>
      rcases hauth with h | ⟨_, rfl⟩
      · exact no _ (entitled_delegated h) hs
      · exact no _ (.inl rfl) hs
    | unlock _ s rest ha hs hauth =>
      rcases hauth with h | ⟨_, rfl⟩
      · exact no _ (entitled_delegated h) hs
      · exact no _ (.inl rfl) hs
    | join => exact hkeep (.inl rfl)
    | leave => exact hkeep (.inr (.inl rfl))
    | handover _ s n rest ha hs hn hauth => exact no _ (.inr (.inl hauth.symm)) hs
    | retitle _ x s rest ha hs hauth => exact no _ (.inr (.inl hauth.symm)) hs
    | update _ x s rest e p ha hs hauth => exact no _ (.inr (.inl hauth.symm)) hs
    | updateFrom _ x s b rest t p ha hs hauth => exact no _ (.inr (.inl hauth.symm)) hs
    | remove _ t s rest ha hs hauth => exact no _ (.inr (.inl hauth.symm)) hs
    | verify => exact hkeep (.inr (.inr (.inl rfl)))
    | unverify => exact hkeep (.inr (.inr (.inr rfl)))
    | memberIn _ _ p hi ha hk' => exact hk' hk
    | memberOut _ _ p hi ha hk' => exact hk' hk

/-- The owner changes only with the signature of the owner of the time or of a delegate with the role
of transferring. -/
theorem C77_owner_partial (hs : Stores program L k A) (hl : Unheld program k L L') :
    ∃ A', Stores program L' k A' ∧ A'.owner = A.owner := by
  induction hl with
  | refl => exact ⟨A, hs, rfl⟩
  | instr E accts i _ hp h hb hstep ih =>
    obtain ⟨B, h1, h2⟩ := ih
    subst hp
    obtain ⟨h3, h4, h5⟩ := hstep B h1
    rcases refine h1 h h3 with ⟨c1, c2, _⟩ | ⟨B', c1, c2⟩
    · exact absurd ⟨c1, c2⟩ hb
    · refine ⟨B', c1, ?_⟩
      rw [← h2]
      cases c2 with
      | transfer _ s r rest ha hs hauth =>
        rcases hauth with rfl | hd
        · rw [h4] at hs; cases hs
        · rw [h5 s hd] at hs; cases hs
      | _ => rfl
  | foreign _ hf ih =>
    obtain ⟨B, h1, h2⟩ := ih
    exact ⟨B, h1.foreign hf, h2⟩

end

section Examples
open Verif.Ex

theorem simple_entitled {x : Key} (h : simpleAsset.Entitled x) : x = k 2 ∨ x = k 3 ∨ x = k 4 := by
  rcases h with rfl | rfl | ⟨_, rfl⟩ | ⟨m, hm, _⟩ | ⟨p, j, hp, _⟩
  · exact .inl rfl
  · exact .inr (.inl rfl)
  · exact .inr (.inr rfl)
  · cases hm
  · cases hp

/-- The wallet `k 5` has no say in the asset `k 1`. It creates another asset, naming the owner and the
authority of `k 1`; then `k 1` is as it was. -/
example : ∃ L', run simple [k 30, k 5] [k 30, k 3, k 2, prog, prog, k 5, Key.system]
      (.create ⟨[65], .nonFungible, true, some [⟨.attributes, 4, some [1, 97, 1, 98]⟩]⟩) = .ok L' ∧
    ∃ A', Stores prog L' (k 1) A' ∧ SameAsset simpleAsset A' := by
  have hs : Stores prog simple (k 1) simpleAsset := checkStores_sound (by decide +kernel)
  have h : (run simple [k 30, k 5] [k 30, k 3, k 2, prog, prog, k 5, Key.system]
    (.create ⟨[65], .nonFungible, true, some [⟨.attributes, 4, some [1, 97, 1, 98]⟩]⟩)).isOk = true := by
    decide +kernel
  cases e : run simple [k 30, k 5] [k 30, k 3, k 2, prog, prog, k 5, Key.system]
    (.create ⟨[65], .nonFungible, true, some [⟨.attributes, 4, some [1, 97, 1, 98]⟩]⟩) with
  | error => rw [e] at h; cases h
  | ok L' =>
    refine ⟨L', rfl, C77_history_partial hs (.instr _ _ _ (.refl _) rfl e fun x hx => ?_)⟩
    rcases simple_entitled hx with rfl | rfl | rfl <;> decide

/-- The negation: in the memory of the program (`executeRaw`), three instructions signed by nobody who
has a say in the asset `k 1` give it another owner. -/
theorem C77_false : ∃ L1 L2 L3,
    sends (env simple []) simple (mint prog (lure someLoader (env simple []) simple (k 30) (k 31) (k 5) (k 1) (k 5))) =
      .ok L1 ∧
    execute (callEnv (env simple []) L1 [k 30, k 31, k 5] [k 30, k 5]) L1 [k 30, k 31, k 5, Key.system]
      (.resize (.extend 24)) = .ok L2 ∧
    executeRaw someLoader (callEnv (env simple []) L2 [k 31] [k 30, k 1]) L2 [k 30, k 31, prog, k 31, k 1]
      (.remove .none) = .ok L3 ∧
    Stores prog simple (k 1) simpleAsset ∧ (∀ x ∈ [k 30, k 31, k 5], ¬ simpleAsset.Entitled x) ∧
    ∃ A, Stores prog L3 (k 1) A ∧ A.owner ≠ simpleAsset.owner := by
  obtain ⟨L1, L2, L3, h1, h2, h3, h4, _, h5⟩ := C76_false
  refine ⟨L1, L2, L3, h1, h2, h3, h4, fun x hx he => ?_, _, h5, by decide⟩
  simp only [List.mem_cons, List.not_mem_nil, or_false] at hx
  rcases simple_entitled he with rfl | rfl | rfl <;> revert hx <;> decide

end Examples

end Verif.Props
