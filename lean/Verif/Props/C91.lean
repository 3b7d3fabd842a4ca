import Verif.Lemmas.Undo
import Verif.Lemmas.Check
import Verif.Props.C13
import Verif.Props.C16

/-!
# C91 — what was done can be taken back
-/

namespace Verif.Props

open Verif Verif.Spec Verif.Ex

section
variable {E E' : Env} {L L1 L2 : Ledger} {k s s' : Key} {A : Asset} {rest rest' : List Key}

/-- Unlock after Lock: the ledger is as before. -/
theorem C91_lock (hs : Stores E.program L k A) (h0 : A.state = 0)
    (h1 : execute E L (k :: s :: rest) .lock = .ok L1)
    (h2 : execute E' L1 (k :: s' :: rest') .unlock = .ok L2) : L2 = L := by
  obtain ⟨_, _, _, e1, g1⟩ := exec_lock h1
  obtain ⟨_, _, _, e2, g2⟩ := exec_unlock h2
  cases e1; cases e2
  exact unlock_after_lock (hs.state_eq.trans h0) g1 g2

/-- Lock after Unlock. -/
theorem C91_unlock (hs : Stores E.program L k A) (h0 : A.state = 1)
    (h1 : execute E L (k :: s :: rest) .unlock = .ok L1)
    (h2 : execute E' L1 (k :: s' :: rest') .lock = .ok L2) : L2 = L := by
  obtain ⟨_, _, _, e1, g1⟩ := exec_unlock h1
  obtain ⟨_, _, _, e2, g2⟩ := exec_lock h2
  cases e1; cases e2
  exact lock_after_unlock (hs.state_eq.trans h0) g1 g2

/-- A handover and the handover back. -/
theorem C91_handover {n : Key} (h1 : execute E L (k :: s :: n :: rest) .handover = .ok L1)
    (h2 : execute E' L1 (k :: n :: s :: rest') .handover = .ok L2) : L2 = L := by
  obtain ⟨_, _, _, _, e1, g1⟩ := exec_handover h1
  obtain ⟨_, _, _, _, e2, g2⟩ := exec_handover h2
  cases e1; cases e2
  exact handover_back g1 g2

/-- Revoke after Approve, for an asset that had no delegate. -/
theorem C91_approve_partial {d : Key} {x : DelegateInput} (hs : Stores E.program L k A)
    (h0 : NoDelegate A) (h1 : execute E L (k :: s :: d :: rest) (.approve x) = .ok L1)
    (h2 : execute E' L1 (k :: s' :: rest') (.revoke .all) = .ok L2) : L2 = L := by
  obtain ⟨_, _, _, _, e1, g1⟩ := exec_approve h1
  obtain ⟨_, _, _, e2, g2⟩ := exec_revoke h2
  cases e1; cases e2
  exact revoke_after_approve (hs.delegate_eq.trans h0.1) (hs.roles_eq.trans h0.2) g1 g2

/-- A transfer and the transfer back to the owner, for an asset that had no delegate. -/
theorem C91_transfer_partial {r : Key} (hs : Stores E.program L k A) (h0 : NoDelegate A)
    (h1 : execute E L (k :: s :: r :: rest) .transfer = .ok L1)
    (h2 : execute E' L1 (k :: s' :: A.owner :: rest') .transfer = .ok L2) : L2 = L := by
  obtain ⟨_, _, _, _, _, e1, g1⟩ := exec_transfer h1
  obtain ⟨_, _, _, _, _, e2, g2⟩ := exec_transfer h2
  cases e1; cases e2
  rw [← hs.owner_eq] at g2
  exact transfer_back (hs.delegate_eq.trans h0.1) (hs.roles_eq.trans h0.2) g1 g2

/-- Ungroup after Group: both the member and the group are as before. -/
theorem C91_group {g : Key} {G : Asset} (hp : E'.program = E.program) (hs : Stores E.program L k A)
    (hg : Stores E.program L g G) (h1 : execute E L (k :: g :: s :: rest) .group = .ok L1)
    (h2 : execute E' L1 (k :: g :: s' :: rest') .ungroup = .ok L2) :
    Stores E.program L2 k A ∧ Stores E.program L2 g G := by
  have hne : k ≠ g := by
    obtain ⟨_, _, _, _, e1, g1⟩ := exec_group h1
    cases e1
    unfold processGroup at g1
    inv at g1
    exact fun h => g1.2.2.2.2.1 h.symm
  have step : ∀ {x : Key} {X : Asset}, Stores E.program L x X →
      ∃ Y Z, Move E (k :: g :: s :: rest) x .group X Y ∧ Stores E.program L2 x Z ∧
        Move E' (k :: g :: s' :: rest') x .ungroup Y Z := by
    intro x X hX
    rcases refine hX h1 trivial with ⟨h, _⟩ | ⟨Y, hY, m1⟩
    · cases h
    rw [← hp] at hY
    rcases refine hY h2 trivial with ⟨h, _⟩ | ⟨Z, hZ, m2⟩
    · cases h
    exact ⟨Y, Z, m1, hp ▸ hZ, m2⟩
  obtain ⟨Y, Z, m1, hZ, m2⟩ := step hs
  obtain ⟨Y', Z', m1', hZ', m2'⟩ := step hg
  rw [move_ungroup_member m1 m2] at hZ
  rw [move_ungroup_group hne m1' m2'] at hZ'
  exact ⟨hZ, hZ'⟩

/-- Unverify after Verify, for a creator that was not verified. -/
theorem C91_verify_partial {c : Key} (hp : E'.program = E.program) (hs : Stores E.program L k A)
    (h0 : Unflagged c A) (h1 : execute E L (k :: c :: rest) .verify = .ok L1)
    (h2 : execute E' L1 (k :: c :: rest') .unverify = .ok L2) : Stores E.program L2 k A := by
  rcases refine hs h1 trivial with ⟨h, _⟩ | ⟨B, hB, m1⟩
  · cases h
  rw [← hp] at hB
  rcases refine hB h2 trivial with ⟨h, _⟩ | ⟨C, hC, m2⟩
  · cases h
  rw [move_unverify_back h0 m1 m2] at hC
  exact hp ▸ hC

/-- A new name and the old one again. -/
theorem C91_rename {b : Key} {n : Bytes} (hb : b = E.program) (hp : E'.program = E.program)
    (hs : Stores E.program L k A)
    (h1 : execute E L (k :: s :: b :: rest) (.update ⟨some n, none, none⟩) = .ok L1)
    (h2 : execute E' L1 (k :: s' :: b :: rest') (.update ⟨some A.name, none, none⟩) = .ok L2) :
    Stores E.program L2 k A := by
  have hname : storedName A.name = A.name := by
    have hl : A.name.length = 35 := by
      rw [hs.2.2.1]
      show (slice (L k).data 133 35).length = 35
      have := hs.1.2.1
      rw [length_slice]; omega
    unfold storedName
    rw [List.take_left' hl]
  rcases refine hs h1 (fun _ e he => by cases he) with ⟨h, _⟩ | ⟨B, hB, m1⟩
  · cases h
  rw [move_retitle_is rfl (by rw [hb]; rfl) rfl m1] at hB
  rw [← hp] at hB
  rcases refine hB h2 (fun _ e he => by cases he) with ⟨h, _⟩ | ⟨C, hC, m2⟩
  · cases h
  rw [move_retitle_is rfl (by rw [hb, hp]; rfl) rfl m2] at hC
  have e : (A.retitled ⟨some n, none, none⟩).retitled ⟨some A.name, none, none⟩ = A := by
    unfold Asset.retitled
    simp only [hname]
  rw [e] at hC
  exact hp ▸ hC

/-- Remove after an Update that added an extension. -/
theorem C91_add {x : UpdateInput} {e : ExtInput} (hp : E'.program = E.program)
    (hs : Stores E.program L k A) (hu : Untitled x) (hx : x.extension = some e) (ht : e.ty ≠ .none)
    (hnew : lookup e.ty A.exts = none) (h1 : execute E L (k :: rest) (.update x) = .ok L1)
    (h2 : execute E' L1 (k :: rest') (.remove e.ty) = .ok L2) : Stores E.program L2 k A := by
  have hn := lookup_eq_none.mp hnew
  rcases refine hs h1 (fun _ e' he => by rw [hx] at he; cases he; exact ht) with ⟨h, _⟩ | ⟨B, hB, m1⟩
  · cases h
  obtain ⟨p, _, _, rfl⟩ := move_update_set rfl hu hx m1
  rw [← hp] at hB
  rcases refine hB h2 (fun _ => ⟨ht, by
      simp only [setExt_appends hn, List.map_append, List.map_cons, List.map_nil]
      simp, by
      simp only [setExt_appends hn, List.map_append, List.map_cons, List.map_nil]
      rw [List.count_append, List.count_eq_zero.mpr hn]
      simp⟩) with ⟨h, _⟩ | ⟨C, hC, m2⟩
  · cases h
  rw [move_remove_is rfl m2] at hC
  simp only [removeExt_setExt hn] at hC
  exact hp ▸ hC

/-- An Update that replaces the data of an extension, other than Creators, and one that brings back the
old data. -/
theorem C91_replace_partial {x x' : UpdateInput} {e e' : ExtInput} {p new : Bytes}
    (hp : E'.program = E.program) (hs : Stores E.program L k A) (hu : Untitled x) (hu' : Untitled x')
    (hx : x.extension = some e) (hx' : x'.extension = some e') (ht : e.ty ≠ .none)
    (hc : e.ty ≠ .creators) (hty : e'.ty = e.ty) (hold : lookup e.ty A.exts = some p)
    (hd : e.data = some new) (hd' : e'.data = some p)
    (h1 : execute E L (k :: rest) (.update x) = .ok L1)
    (h2 : execute E' L1 (k :: rest') (.update x') = .ok L2) : Stores E.program L2 k A := by
  rcases refine hs h1 (fun _ e' he => by rw [hx] at he; cases he; exact ht) with ⟨h, _⟩ | ⟨B, hB, m1⟩
  · cases h
  obtain ⟨q, _, u1, rfl⟩ := move_update_set rfl hu hx m1
  rw [← hp] at hB
  rcases refine hB h2 (fun _ e' he => by rw [hx'] at he; cases he; rw [hty]; exact ht) with
    ⟨h, _⟩ | ⟨C, hC, m2⟩
  · cases h
  obtain ⟨r, _, u2, rfl⟩ := move_update_set rfl hu' hx' m2
  rw [hty] at u2 hC
  simp only [lookup_setExt_same] at u2
  unfold UpdatesTo at u1 u2
  rw [hd, hold] at u1
  rw [hd', hty] at u2
  simp only at u1 u2
  rw [accepted_back hc u1.1 u2.1] at hC
  simp only [setExt_twice, setExt_lookup hold] at hC
  exact hp ▸ hC

end

/-- **C91** fails: a transfer there and back loses the delegate. -/
theorem C91_transfer_false :
    ((run simple [k 2] [k 1, k 2, k 6, prog] .transfer).bind fun M =>
      (run M [k 6] [k 1, k 6, k 2, prog] .transfer).map fun N =>
        (hOwner (N (k 1)).data, hDelegate (N (k 1)).data, hDelegate (simple (k 1)).data)) =
      .ok (k 2, Key.default, k 4) := by decide +kernel

/-- … and to approve another delegate and to revoke it loses the first one. -/
theorem C91_approve_false :
    ((run simple [k 2] [k 1, k 2, k 6] (.approve .all)).bind fun M =>
      (run M [k 2] [k 1, k 2] (.revoke .all)).map fun N => hDelegate (N (k 1)).data) =
      .ok Key.default := by decide +kernel

/-- … to verify and to unverify a creator that was verified already … -/
theorem C91_verify_false :
    ((run twoCreators [k 10] [k 1, k 10] .verify).bind fun M =>
      (run M [k 10] [k 1, k 10] .unverify).map fun N => assetGet .creators (N (k 1)).data) =
      .ok (.ok (some (rec (k 10) 0 40 ++ rec (k 11) 0 60))) := by decide +kernel

/-- An asset that names its authority among the creators, not verified. -/
def selfMade : Ledger :=
  ledger [(k 1, owned (header 0 0 1 (k 2) Key.default (k 3) Key.default 0 [65] ++
      blocks 168 [(.creators, rec (k 10) 0 40 ++ rec (k 3) 0 60)])),
    (k 2, wallet), (k 3, wallet), (k 5, wallet)]

/-- … and to take the authority out of the creators and to bring back the old list: the authority is verified
then. -/
theorem C91_creators_false :
    ((run selfMade [k 3, k 5] updateAccts
      (.update ⟨none, none, some ⟨.creators, 34, some (rec (k 10) 0 100)⟩⟩)).bind fun M =>
      (run M [k 3, k 5] updateAccts
        (.update ⟨none, none, some ⟨.creators, 68, some (rec (k 10) 0 40 ++ rec (k 3) 0 60)⟩⟩)).map
        fun N => assetGet .creators (N (k 1)).data) =
      .ok (.ok (some (rec (k 10) 0 40 ++ rec (k 3) 1 60))) := by decide +kernel

/-! The pairs do occur. -/

example : ((run simple [k 4] [k 1, k 4] .lock).bind fun M => run M [k 4] [k 1, k 4] .unlock).isOk
    = true := by decide +kernel

example : ((run simple [k 3, k 6] [k 1, k 3, k 6] .handover).bind fun M =>
    run M [k 3, k 6] [k 1, k 6, k 3] .handover).isOk = true := by decide +kernel

example : ((run twoCreators [k 2] [k 1, k 2, k 6, prog] .transfer).bind fun M =>
    run M [k 6] [k 1, k 6, k 2, prog] .transfer).map (fun N => decide (N (k 1) = twoCreators (k 1))) =
      .ok true := by decide +kernel

example : ((run twoCreators [k 11] [k 1, k 11] .verify).bind fun M =>
    run M [k 11] [k 1, k 11] .unverify).map (fun N => decide (N (k 1) = twoCreators (k 1))) =
      .ok true := by decide +kernel

example : ((run simple [k 3, k 5] updateAccts
      (.update ⟨none, none, some ⟨.bucket, 3, some [1, 97, 0]⟩⟩)).bind fun M =>
    run M [k 3] [k 1, k 3, prog, k 5] (.remove .bucket)).map
      (fun N => decide ((N (k 1)).data = (simple (k 1)).data)) = .ok true := by decide +kernel

example : ((run groupLedger [k 8] [k 1, k 7, k 8] .group).bind fun M =>
    run M [k 8] [k 1, k 7, k 8] .ungroup).map
      (fun N => decide (N (k 1) = groupLedger (k 1) ∧ N (k 7) = groupLedger (k 7))) = .ok true := by
  decide +kernel

end Verif.Props
