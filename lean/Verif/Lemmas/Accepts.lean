import Verif.Spec.Accepts
import Verif.Lemmas.Moves
import Verif.Lemmas.Constraint

/-!
# Requests that are not refused
-/

namespace Verif

open Verif.Spec

section
variable {E : Env} {L L' : Ledger} {accts : List Key} {k : Key} {A : Asset}

theorem proxied_ok (hs : Stores E.program L k A) (hu : Usable E k A) (ha : accts.head? = some k) :
    proxiedCheck E L accts = .ok () := by
  cases accts with
  | nil => rfl
  | cons a as =>
    obtain rfl : a = k := by simpa using ha
    unfold proxiedCheck
    simp only
    split
    · inv
      have hl := hs.1.2.1
      refine ⟨by omega, ?_⟩
      by_cases h3 : A.standard = 3
      · exact Or.inr (hu.2 h3)
      · left
        rw [hs.standard_eq]
        exact h3
    · rfl

theorem lockedScan_calm {ks : List Key} (h : ∀ x ∈ ks, Calm E.program L x) :
    lockedScan E L ks = .ok false := by
  induction ks with
  | nil => rfl
  | cons x xs ih =>
    have ih := ih fun y hy => h y (by simp [hy])
    unfold lockedScan
    simp only
    split
    · rename_i hc
      obtain ⟨h1, h2⟩ := h x (by simp) hc.1 hc.2.2
      inv
      refine ⟨by omega, ?_⟩
      rw [if_neg (show ¬ hState (L x).data = stateLocked from h2)]
      exact ih
    · exact ih

theorem lockedScan_whole {ks : List Key} (h : ∀ x ∈ ks, Whole E.program L x) :
    ∃ b, lockedScan E L ks = .ok b := by
  induction ks with
  | nil => exact ⟨_, rfl⟩
  | cons x xs ih =>
    obtain ⟨b, ih⟩ := ih fun y hy => h y (by simp [hy])
    by_cases hc : (L x).owner = E.program ∧ (L x).data ≠ [] ∧ hDisc (L x).data = discAsset
    · have h1 := h x (by simp) hc.1 hc.2.2
      by_cases hl : hState (L x).data = stateLocked
      · refine ⟨true, ?_⟩
        unfold lockedScan
        simp only
        rw [if_pos hc]
        inv
        exact ⟨by omega, by rw [if_pos hl]; rfl⟩
      · refine ⟨b, ?_⟩
        unfold lockedScan
        simp only
        rw [if_pos hc]
        inv
        exact ⟨by omega, by rw [if_neg hl]; exact ih⟩
    · refine ⟨b, ?_⟩
      unfold lockedScan
      simp only
      rw [if_neg hc]
      exact ih

/-- A request is accepted when nothing is locked, the processor succeeds and the runtime allows
the changes. -/
theorem accept_calm {i : Instr} (hs : Stores E.program L k A) (hu : Usable E k A)
    (ha : accts.head? = some k) (hc : ∀ x ∈ accts, Calm E.program L x)
    (hd : dispatch E L i (accts.take 7) = .ok L')
    (hw : ∀ x ∈ accts, changeAllowed E x (L x) (L' x) = true) : execute E L accts i = .ok L' := by
  have ha' : (accts.take 7).head? = some k := by
    cases accts with
    | nil => cases ha
    | cons a as => simpa using ha
  unfold execute processInstr
  inv
  refine ⟨L', ⟨proxied_ok hs hu ha', false, lockedScan_calm fun x hx => hc x (List.mem_of_mem_take hx),
    by simp, hd⟩, ?_⟩
  rw [if_pos (by rw [List.all_eq_true]; exact hw)]
  rfl

/-- The same for instructions that work on locked assets. -/
theorem accept_whole {i : Instr} (hs : Stores E.program L k A) (hu : Usable E k A)
    (ha : accts.head? = some k) (hc : ∀ x ∈ accts, Whole E.program L x)
    (hb : i.blockedByLock = false)
    (hd : dispatch E L i (accts.take 7) = .ok L')
    (hw : ∀ x ∈ accts, changeAllowed E x (L x) (L' x) = true) : execute E L accts i = .ok L' := by
  have ha' : (accts.take 7).head? = some k := by
    cases accts with
    | nil => cases ha
    | cons a as => simpa using ha
  obtain ⟨b, hb'⟩ := lockedScan_whole (L := L) (E := E) (ks := accts.take 7)
    fun x hx => hc x (List.mem_of_mem_take hx)
  unfold execute processInstr
  inv
  refine ⟨L', ⟨proxied_ok hs hu ha', b, hb', by simp [hb], hd⟩, ?_⟩
  rw [if_pos (by rw [List.all_eq_true]; exact hw)]
  rfl

theorem changed_nothing (x : Key) : changeAllowed E x (L x) (L x) = true := by
  unfold changeAllowed; simp

theorem changed_owned {x : Key} (hw : E.writable x = true) (ho : (L x).owner = E.program)
    (hl : (L' x).data.length ≤ 10485760) : changeAllowed E x (L x) (L' x) = true := by
  unfold changeAllowed
  simp [hw, ho, show (L' x).data.length ≤ maxDataLen from hl]

/-- Only the data of the asset changes, and it still stores an asset. -/
theorem changed_asset {d : Bytes} {B : Asset} (hs : Stores E.program L k A) (hu : Usable E k A)
    (hb : Stores E.program (L.setData k d) k B) (x : Key) :
    changeAllowed E x (L x) (L.setData k d x) = true := by
  by_cases hx : x = k
  · subst hx
    exact changed_owned (L' := L.setData x d) hu.1 hs.1.1 hb.2.1
  · rw [Ledger.setData_other _ _ hx]
    exact changed_nothing x

theorem calm_stores (hs : Stores E.program L k A) (h : A.state ≠ 1) : Calm E.program L k :=
  fun _ _ => ⟨by have := hs.1.2.1; omega, by
    have := hs.state_eq
    exact fun hh => h (this ▸ hh)⟩

theorem whole_stores (hs : Stores E.program L k A) : Whole E.program L k :=
  fun _ _ => by have := hs.1.2.1; omega

theorem Spec.Calm.whole {program x : Key} (h : Calm program L x) : Whole program L x :=
  fun a b => (h a b).1

/-! ## Reading -/

theorem Spec.Stores.hasExts {p : Key} (hs : Stores p L k A) : HasExts (L k).data A.exts := by
  obtain ⟨_, _, _, e, h1, h2⟩ := hs
  exact ⟨e, h1.walk, Or.inr h2⟩

theorem Spec.Stores.get {p : Key} (hs : Stores p L k A) {t : ExtType} (ht : t ≠ .none) :
    assetGet t (L k).data = .ok (lookup t A.exts) := assetGet_walk hs.hasExts ht

theorem manager_ok (hs : Stores E.program L k A) (hm : ManagerReadable A) :
    managerOf (L k).data = .ok A.manager := by
  obtain ⟨_, _, _, e, h6, h7⟩ := id hs
  have : ∃ m, managerOf (L k).data = .ok m := by
    unfold managerOf
    rw [show assetLen = 168 from rfl]
    rcases extGet_walk (t := .manager) h6.walk (Or.inr h7) (by decide) with ⟨g1, g2⟩ |
      ⟨pre, pl', post, m, g1, g2, g3, g4, g5, g6⟩
    · rw [g2]; exact ⟨_, rfl⟩
    · rw [g6]
      have := hm _ g3
      refine ⟨some ⟨keyAt pl' 0, byteAt pl' 32⟩, ?_⟩
      simp only [bind, Except.bind, readManager, if_neg (show ¬ pl'.length < 33 by omega)]
      rfl
  obtain ⟨m, h⟩ := this
  rw [h, hs.manager h]

theorem ownerOrDelegate_ok {s : Key} {r : Role} (hs : Stores E.program L k A)
    (hm : ManagerReadable A) (h : A.owner = s ∨ A.Delegated s r) :
    ownerOrDelegate (L k).data s r = .ok true := by
  unfold ownerOrDelegate
  split
  · rfl
  · rename_i ho
    rw [hs.owner_eq] at ho
    obtain hd := h.resolve_left ho
    inv
    refine ⟨_, manager_ok hs hm, ?_⟩
    rw [hs.holder, (assertDelegate_two _ _ _ _).mpr hd]
    rfl

/-- A present owner needs no manager. -/
theorem ownerOrDelegate_owner {s : Key} {r : Role} (hs : Stores E.program L k A)
    (h : A.owner = s) : ownerOrDelegate (L k).data s r = .ok true := by
  unfold ownerOrDelegate
  rw [if_pos (by rw [hs.owner_eq]; exact h)]

theorem lockAuthority_ok {s : Key} (hs : Stores E.program L k A) (hm : ManagerReadable A)
    (h : A.MayLock s) : lockAuthority (L k).data s = .ok () := by
  unfold lockAuthority
  inv
  refine ⟨_, manager_ok hs hm, ?_⟩
  rw [hs.holder]
  rcases h with h | ⟨h1, h2⟩
  · cases hx : A.holderDelegate with
    | some x =>
      simp only
      rw [← hx]
      exact (assertDelegate_two _ _ _ _).mpr h
    | none =>
      simp only
      split
      · obtain ⟨y, hy, h3⟩ := h
        rw [hx] at hy
        refine (assertDelegate_one _ _ _).mpr ⟨y, ?_, h3⟩
        cases hz : A.manager with
        | none => rw [hz] at hy; cases hy
        | some z => rw [hz] at hy; exact hy
      · rfl
  · have hx : A.holderDelegate = none := by unfold Asset.holderDelegate; rw [if_pos h1]
    rw [hx]
    simp only
    rw [if_neg (by rw [hs.owner_eq, h2]; simp)]
    rfl

theorem royalties_ok {a s r : Key} (hs : Stores E.program L k A)
    (h : RoyaltiesAllow E L a s r A) :
    ∃ b, processRoyalties E L a s r (L k).data = .ok b ∧
      (b = true ↔ lookup .royalties A.exts ≠ none) := by
  unfold processRoyalties
  rw [hs.get (by decide)]
  cases hp : lookup .royalties A.exts with
  | none => exact ⟨false, rfl, by simp⟩
  | some p =>
    obtain ⟨h1, c, h2, h3⟩ := h p hp
    refine ⟨true, ?_, by simp⟩
    have hr : readRoyalties p = .ok ⟨leNat (slice p 0 8), c⟩ := by
      unfold readRoyalties
      rw [if_neg (by omega), h2]
      rfl
    simp only [bind, Except.bind, hr]
    split
    · rename_i hw
      obtain ⟨h4, h5⟩ := h3.resolve_left (fun h => hw h)
      obtain ⟨b, hb⟩ := evalC_total _ _ h4
      have := (evalC_holds _ _ _ hb).mpr h5
      subst this
      rw [show (⟨targetOf L a, targetOf L s, some (targetOf L r)⟩ : CCtx) =
        ⟨targetAt L a, targetAt L s, some (targetAt L r)⟩ from rfl, hb]
      simp only [require, if_true]
      rfl
    · rfl

theorem getMut_ok {p : Key} (hs : Stores p L k A) {t : ExtType} (ht : t ≠ .none) {pl : Bytes}
    (hp : lookup t A.exts = some pl) :
    ∃ off, assetGetMut t (L k).data = .ok (some (off, pl)) := by
  obtain ⟨_, _, _, e, h6, h7⟩ := id hs
  unfold assetGetMut
  rcases find_walk h6.walk (Or.inr h7) ht with ⟨g1, _, g2⟩ |
    ⟨pre, pl', post, m, g1, g2, g3, g4, g5, g6⟩
  · rw [g1] at hp; cases hp
  · rw [g3] at hp
    cases hp
    rw [g6]
    simp only [bind, Except.bind]
    rw [payloadAt_walk g5]
    exact ⟨_, rfl⟩

theorem extGet_ok {p : Key} (hs : Stores p L k A) {t : ExtType} (ht : t ≠ .none) {pl : Bytes}
    (hp : lookup t A.exts = some pl) :
    ∃ off, extGet t ((L k).data.drop assetLen) = .ok (some (off, pl)) := by
  obtain ⟨_, _, _, e, h6, h7⟩ := id hs
  rw [show assetLen = 168 from rfl]
  rcases extGet_walk h6.walk (Or.inr h7) ht with ⟨g1, g2⟩ |
    ⟨pre, pl', post, m, g1, g2, g3, g4, g5, g6⟩
  · rw [g1] at hp; cases hp
  · rw [g3] at hp
    cases hp
    exact ⟨_, g6⟩

theorem groupAuthority_ok {g s : Key} {G : Asset} {p : Bytes} (hs : Stores E.program L g G)
    (h : MayGroup G p s) :
    groupAuthority (L g).data ⟨membersOf p, limitOf p,
      if p.length = 48 then keyAt p 16 else Key.default⟩ s = .ok () := by
  unfold groupAuthority
  rw [hs.authority_eq]
  rcases h with h | ⟨h1, h2, h3⟩
  · rw [if_neg (by rw [h]; simp)]
  · rw [if_pos h1]
    split
    · inv
      exact h3
    · rfl

end
end Verif
