import Verif.Spec.Undo
import Verif.Lemmas.Again
import Verif.Lemmas.AgainRecord

/-!
# An instruction and the one that takes it back
-/

namespace Verif

open Verif.Spec Verif.Props

/-- Two writes, the second of which writes what was there at first. -/
theorem setData_back {L : Ledger} {k : Key} {d1 d2 : Bytes} (h : 168 ≤ (L k).data.length)
    (hl : d2.length = (L k).data.length) (hv : view d2 = view (L k).data) :
    (L.setData k d1).setData k d2 = L := by
  have e : d2 = (L k).data := (view_injective h (by omega) hv.symm).symm
  funext x
  by_cases hx : x = k
  · subst hx; simp only [Ledger.setData_same, e]
  · simp only [Ledger.setData_other _ _ hx]

section
variable {E E' : Env} {L L1 L2 : Ledger} {a s s' d : Key}

theorem unlock_after_lock (h0 : hState (L a).data = stateUnlocked) (h1 : processLock E L a s = .ok L1)
    (h2 : processUnlock E' L1 a s' = .ok L2) : L2 = L := by
  unfold processLock at h1
  unfold processUnlock at h2
  inv at h1
  inv at h2
  obtain ⟨_, _, hi, _, rfl⟩ := h1
  obtain ⟨_, _, _, _, rfl⟩ := h2
  have hi' := hi.1
  simp only [assetLen] at hi'
  have hl := length_setState hi' stateLocked
  simp only [Ledger.setData_same]
  apply setData_back hi'
  · rw [length_setState (by omega), hl]
  · rw [view_setState (by omega), view_setState hi', ← h0]; rfl

theorem lock_after_unlock (h0 : hState (L a).data = stateLocked) (h1 : processUnlock E L a s = .ok L1)
    (h2 : processLock E' L1 a s' = .ok L2) : L2 = L := by
  unfold processUnlock at h1
  unfold processLock at h2
  inv at h1
  inv at h2
  obtain ⟨_, _, hi, _, rfl⟩ := h1
  obtain ⟨_, _, _, _, rfl⟩ := h2
  have hi' := hi.1
  simp only [assetLen] at hi'
  have hl := length_setState hi' stateUnlocked
  simp only [Ledger.setData_same]
  apply setData_back hi'
  · rw [length_setState (by omega), hl]
  · rw [view_setState (by omega), view_setState hi', ← h0]; rfl

theorem handover_back (h1 : processHandover E L a s d = .ok L1)
    (h2 : processHandover E' L1 a s' s = .ok L2) : L2 = L := by
  unfold processHandover at h1 h2
  inv at h1
  inv at h2
  obtain ⟨_, _, _, hi, ha, _, rfl⟩ := h1
  obtain ⟨_, _, _, _, _, _, rfl⟩ := h2
  have hi' := hi.1
  simp only [assetLen] at hi'
  have hl := length_setAuthority hi' d
  simp only [Ledger.setData_same]
  apply setData_back hi'
  · rw [length_setAuthority (by omega), hl]
  · rw [view_setAuthority (by omega), view_setAuthority hi', ← ha]; rfl

theorem revoke_after_approve {x : DelegateInput} (hd : hDelegate (L a).data = Key.default)
    (hr : hRoles (L a).data = 0) (h1 : processApprove E L a s d x = .ok L1)
    (h2 : processRevoke E' L1 a s' .all = .ok L2) : L2 = L := by
  unfold processApprove at h1
  unfold processRevoke at h2
  inv at h1
  inv at h2
  obtain ⟨_, hi, _, _, h1⟩ := h1
  obtain ⟨_, _, _, _, rfl⟩ := h2
  have hi' := hi.1
  simp only [assetLen] at hi'
  rw [if_neg (fun h => h.1 hd)] at h1
  cases h1
  have hl := length_setDelegate hi' d x.approveMask
  simp only [Ledger.setData_same]
  apply setData_back hi'
  · rw [length_setDelegate (by omega), hl]
  · rw [view_setDelegate (by omega), view_setDelegate hi']
    have e1 : (view (L a).data).delegate = Key.default := hd
    have e2 : (view (L a).data).roles = 0 := hr
    rw [← e1, ← e2]

theorem transfer_back {r : Key} {g g' : Option Key} (hd : hDelegate (L a).data = Key.default)
    (hr : hRoles (L a).data = 0) (h1 : processTransfer E L a s r g = .ok L1)
    (h2 : processTransfer E' L1 a s' (hOwner (L a).data) g' = .ok L2) : L2 = L := by
  have hO : ∀ y : Bytes, hOwner y = (view y).owner := fun _ => rfl
  unfold processTransfer at h1 h2
  inv at h1
  inv at h2
  obtain ⟨_, _, hi, _, _, _, _, _, _, h1⟩ := h1
  obtain ⟨_, _, _, _, _, _, _, _, _, h2⟩ := h2
  have hi' := hi.1
  simp only [assetLen] at hi'
  split at h1
  · cases h1
    rw [if_pos rfl] at h2
    cases h2; rfl
  · rename_i hne
    inv at h1
    obtain ⟨_, rfl⟩ := h1
    have hl := length_setOwner hi' r
    have hl2 := length_setDelegate (d := setOwner (L a).data r) (by omega) Key.default 0
    have hv : view (setDelegate (setOwner (L a).data r) Key.default 0) =
        { view (L a).data with owner := r, delegate := Key.default, roles := 0 } := by
      rw [view_setDelegate (by omega), view_setOwner hi']
    rw [if_neg (by
      rw [Ledger.setData_same, hO, hv]
      exact fun h => hne h.symm)] at h2
    inv at h2
    obtain ⟨_, rfl⟩ := h2
    simp only [Ledger.setData_same]
    have hl3 := length_setOwner (d := setDelegate (setOwner (L a).data r) Key.default 0) (by omega)
      (hOwner (L a).data)
    apply setData_back hi'
    · rw [length_setDelegate (by omega), hl3, hl2, hl]
    · rw [view_setDelegate (by omega), view_setOwner (by omega), hv]
      have e1 : (view (L a).data).delegate = Key.default := hd
      have e2 : (view (L a).data).roles = 0 := hr
      rw [← e1, ← e2]
      rfl

end

/-! ## Extensions -/

theorem setExt_lookup {t : ExtType} {p : Bytes} {es : List Extn} (h : lookup t es = some p) :
    setExt t p es = es := by
  induction es with
  | nil => cases h
  | cons x xs ih =>
    obtain ⟨t', p'⟩ := x
    rw [lookup] at h
    by_cases hx : t' = t
    · rw [if_pos hx] at h
      cases h
      simp [setExt, hx]
    · rw [if_neg hx] at h
      simp [setExt, hx, ih h]

theorem removeExt_setExt {t : ExtType} {p : Bytes} {es : List Extn} (h : t ∉ es.map (·.1)) :
    removeExt t (setExt t p es) = es := by
  induction es with
  | nil => simp [setExt, removeExt]
  | cons x xs ih =>
    obtain ⟨t', p'⟩ := x
    simp only [List.map_cons, List.mem_cons, not_or] at h
    have hx : ¬ t' = t := fun e => h.1 e.symm
    simp [setExt, removeExt, hx, ih h.2]

theorem setExt_appends {t : ExtType} {p : Bytes} {es : List Extn} (h : t ∉ es.map (·.1)) :
    setExt t p es = es ++ [(t, p)] := by
  induction es with
  | nil => rfl
  | cons x xs ih =>
    obtain ⟨t', p'⟩ := x
    simp only [List.map_cons, List.mem_cons, not_or] at h
    have hx : ¬ t' = t := fun e => h.1 e.symm
    simp [setExt, hx, ih h.2]

/-- Setting the flags of a creator and clearing them, when none was set. -/
theorem setsFlags_back {c : Key} {p q r : Bytes} (h1 : SetsFlags c 1 p q) (h2 : SetsFlags c 0 q r)
    (h0 : ∀ i, i * 34 + 34 ≤ p.length → slice p (i * 34) 32 = c.1 → byteAt p (i * 34 + 32) = 0) :
    r = p := by
  obtain ⟨a1, a2, a3⟩ := h1
  obtain ⟨b1, b2, b3⟩ := h2
  apply List.ext_getElem?
  intro i
  by_cases hi : i < p.length
  · have hj : i / 34 * 34 + 34 ≤ p.length := by omega
    obtain ⟨x1, x2, x3⟩ := a3 (i / 34) hj
    obtain ⟨y1, y2, y3⟩ := b3 (i / 34) (by omega)
    rw [byteAt_eq_getElem (by omega), byteAt_eq_getElem hi]
    by_cases c1 : i % 34 < 32
    · have := getElem?_of_slice (y1.trans x1) (i := i) (by omega) (by omega)
      rw [byteAt_eq_getElem (by omega), byteAt_eq_getElem hi] at this
      exact this
    · by_cases c2 : i % 34 = 33
      · rw [show i = i / 34 * 34 + 33 by omega, y2, x2]
      · rw [show i = i / 34 * 34 + 32 by omega, y3, x1, x3]
        split
        · rename_i h; rw [h0 _ hj h]
        · rfl
  · rw [List.getElem?_eq_none (by omega), List.getElem?_eq_none (by omega)]

/-- Data that was stored is accepted as it is, whatever has been stored in its place meanwhile. -/
theorem accepted_back {au au' : Option Key} {t : ExtType} {p0 new p q : Bytes} (ht : t ≠ .creators)
    (h1 : Accepted au t (some p0) new p) (h2 : Accepted au' t (some p) p0 q) : q = p0 := by
  cases t
  case creators => exact absurd rfl ht
  case grouping =>
    obtain ⟨hl, _, ho, rfl, _⟩ := h1
    obtain ⟨_, _, _, h2, _⟩ := h2
    rw [h2, membersOf_with (membersOf_lt ho), withMembers_self (by omega)]
  case none => exact h1.elim
  case royalties => exact h2.1
  case manager => exact h2.1
  case proxy => exact h2.1
  all_goals exact h2

section
variable {E E' : Env} {accts accts' : List Key} {k : Key} {A B C : Asset}

theorem move_unverify_back {c : Key} {rest rest' : List Key} (hu : Unflagged c A)
    (h1 : Move E (k :: c :: rest) k .verify A B) (h2 : Move E' (k :: c :: rest') k .unverify B C) :
    C = A := by
  cases h1 with
  | stay _ _ hi => exact absurd rfl hi
  | verify _ c1 rest1 p q ha _ hp hq =>
    cases ha
    cases h2 with
    | stay _ _ hi => exact absurd rfl hi
    | unverify _ c' rest' p' q' ha' _ hp' hq' =>
      cases ha'
      rw [lookup_setExt_same] at hp'
      cases hp'
      cases setsFlags_back hq hq' (hu p hp)
      simp only [setExt_twice, setExt_lookup hp]
    | memberIn _ _ p hi _ hk' _ _ _ => exact absurd rfl hk'
    | memberOut _ _ p hi _ hk' _ _ => exact absurd rfl hk'
  | memberIn _ _ p hi _ hk' _ _ _ => exact absurd rfl hk'
  | memberOut _ _ p hi _ hk' _ _ => exact absurd rfl hk'

theorem move_ungroup_member {g s s' : Key} {rest rest' : List Key}
    (h1 : Move E (k :: g :: s :: rest) k .group A B)
    (h2 : Move E' (k :: g :: s' :: rest') k .ungroup B C) : C = A := by
  cases h1 with
  | stay _ _ hi => exact absurd rfl hi.1
  | join _ g1 s1 rest1 ha _ hg =>
    cases ha
    cases h2 with
    | stay _ _ hi => exact absurd rfl hi.1
    | leave _ g2 s2 rest2 ha' _ hg' =>
      cases ha'
      rw [← hg]
    | memberIn _ _ p hi _ hk' _ _ _ => exact absurd rfl hk'
    | memberOut _ _ p hi _ hk' _ _ => exact absurd rfl hk'
  | memberIn _ _ p hi _ hk' _ _ _ => exact absurd rfl hk'
  | memberOut _ _ p hi _ hk' _ _ => exact absurd rfl hk'

theorem move_ungroup_group {a s s' : Key} {rest rest' : List Key} (hne : a ≠ k)
    (h1 : Move E (a :: k :: s :: rest) k .group A B)
    (h2 : Move E' (a :: k :: s' :: rest') k .ungroup B C) : C = A := by
  cases h1 with
  | stay _ _ hi => exact absurd rfl hi.2
  | join _ g1 s1 rest1 ha _ hg => cases ha; exact absurd rfl hne
  | memberIn _ _ p hi _ hk' hp hl hm =>
    cases h2 with
    | stay _ _ hi => exact absurd rfl hi.2
    | leave _ g2 s2 rest2 ha' _ hg' => cases ha'; exact absurd rfl hne
    | memberIn _ _ p hi _ hk' _ _ _ => rcases hi with h | ⟨_, h⟩ <;> cases h
    | memberOut _ _ p' hi _ hk' hp' hl' =>
      unfold Asset.resized at *
      simp only [lookup_setExt_same] at hp'
      cases hp'
      have hlt := membersOf_lt hl
      have e : fewer (membersOf (withMembers p (more (membersOf p)))) = membersOf p := by
        rw [membersOf_with (by unfold more; exact Nat.mod_lt _ (by decide))]
        unfold more fewer
        split <;> omega
      rw [e]
      simp only [setExt_twice, withMembers_twice]
      rw [withMembers_self (by omega), setExt_lookup hp]
  | memberOut _ _ p hi _ hk' _ _ => rcases hi with h | h <;> cases h

theorem retitled_untitled {x : UpdateInput} (h : Untitled x) : A.retitled x = A := by
  unfold Asset.retitled
  rw [h.1, h.2]

/-- An Update of one extension, without a buffer. -/
theorem move_update_set {x : UpdateInput} {e : ExtInput} (hk : accts.head? = some k) (hu : Untitled x)
    (hx : x.extension = some e) (h : Move E accts k (.update x) A B) :
    ∃ p s, UpdatesTo s e (lookup e.ty A.exts) p ∧ B = { A with exts := setExt e.ty p A.exts } := by
  cases h with
  | stay _ _ hi => exact absurd hk hi
  | retitle _ _ s rest ha _ _ _ hx' => rw [hx] at hx'; cases hx'
  | update _ _ s rest e' p ha _ _ _ hx' _ hp =>
    rw [hx] at hx'
    cases hx'
    exact ⟨p, s, hp, by rw [retitled_untitled hu]⟩
  | updateFrom _ _ s b rest t p ha _ _ _ hx' hne _ _ => rw [hx] at hx'; cases hx'
  | memberIn _ _ p hi _ hk' _ _ _ => exact absurd hk hk'
  | memberOut _ _ p hi _ hk' _ _ => exact absurd hk hk'

/-- An Update without extension and without a buffer. -/
theorem move_retitle_is {x : UpdateInput} (hk : accts.head? = some k) (hb : accts[2]? = some E.program)
    (hx : x.extension = none) (h : Move E accts k (.update x) A B) : B = A.retitled x := by
  cases h with
  | stay _ _ hi => exact absurd hk hi
  | retitle => rfl
  | update _ _ s rest e' p ha _ _ _ hx' _ hp => rw [hx] at hx'; cases hx'
  | updateFrom _ _ s b rest t p ha _ _ _ hx' hne _ _ =>
    rw [ha] at hb
    exact absurd (by simpa using hb) hne
  | memberIn _ _ p hi _ hk' _ _ _ => exact absurd hk hk'
  | memberOut _ _ p hi _ hk' _ _ => exact absurd hk hk'

theorem move_remove_is {t : ExtType} (hk : accts.head? = some k) (h : Move E accts k (.remove t) A B) :
    B = { A with exts := removeExt t A.exts } := by
  cases h with
  | stay _ _ hi => exact absurd hk hi
  | remove => rfl
  | memberIn _ _ p hi _ hk' _ _ _ => exact absurd hk hk'
  | memberOut _ _ p hi _ hk' _ _ => exact absurd hk hk'

end
end Verif
