import Verif.Spec.Crash
import Verif.Lemmas.Finishing
import Verif.Lemmas.Reasons
import Verif.Lemmas.Cut

/-!
# Computations that do not crash
-/

namespace Verif

open Verif.Spec

variable {α β : Type} {E : Env} {L : Ledger} {k : Key} {A : Asset} {payer sys : Option Key} {n : Nat}

instance (e : Err) : Decidable (Crash e) := inferInstanceAs (Decidable (_ ∨ _))

/-- It ends with a value or a proper error. -/
def Tame (r : Except Err α) : Prop := ∀ e, r = .error e → ¬ Crash e

theorem tame_ok (a : α) : Tame (.ok a : Except Err α) := by intro e h; cases h

theorem tame_pure (a : α) : Tame (pure a : Except Err α) := by intro e h; cases h

theorem tame_error {e : Err} (h : ¬ Crash e) : Tame (.error e : Except Err α) := by
  intro e' hh; cases hh; exact h

theorem tame_bind {x : Except Err α} {f : α → Except Err β} (hx : Tame x)
    (hf : ∀ a, x = .ok a → Tame (f a)) : Tame (x >>= f) := by
  cases x with
  | error e => exact fun e' h => hx e' (congrArg Except.error (Except.error.inj h))
  | ok a => exact hf a rfl

theorem tame_require {c : Prop} [Decidable c] {e : Err} (h : ¬ Crash e) : Tame (require c e) := by
  unfold require
  split
  · exact tame_ok _
  · exact tame_error h

theorem tame_is {x : Except Err α} {a : α} (h : x = .ok a) : Tame x := by rw [h]; exact tame_ok _

theorem tame_has {x : Except Err α} (h : ∃ a, x = .ok a) : Tame x := tame_is h.choose_spec

/-- One step of the analysis. -/
syntax "tame1" : tactic
macro_rules | `(tactic| tame1) => `(tactic| split)
macro_rules | `(tactic| tame1) => `(tactic| with_reducible refine tame_bind ?_ (fun _ _ => ?_))
macro_rules | `(tactic| tame1) => `(tactic| with_reducible exact tame_error (by decide))
macro_rules | `(tactic| tame1) => `(tactic| with_reducible exact tame_require (by decide))
macro_rules | `(tactic| tame1) => `(tactic| with_reducible exact tame_pure _)
macro_rules | `(tactic| tame1) => `(tactic| with_reducible exact tame_ok _)
macro_rules | `(tactic| tame1) => `(tactic| assumption)

/-- Opens up a `do` block. -/
macro "taming" : tactic => `(tactic| repeat' tame1)

/-! ## The runtime -/

theorem tame_assertDelegate (ds : List (Option Delegate)) (k : Key) (r : Role) :
    Tame (assertDelegate ds k r) := by
  unfold assertDelegate
  have : ∀ (ds : List (Option Delegate)) (x : Except Err Unit), Tame x →
      Tame (ds.foldl (assertDelegateStep k r) x) := by
    intro ds
    induction ds with
    | nil => exact fun x h => h
    | cons y ds ih =>
      intro x h
      refine ih _ ?_
      unfold assertDelegateStep; taming
  exact this _ _ (tame_error (by decide))
macro_rules | `(tactic| tame1) => `(tactic| with_reducible exact tame_assertDelegate _ _ _)

theorem tame_transfer {s d : Key} : Tame (systemTransfer E L s d n) := by
  unfold systemTransfer; simp only; taming
macro_rules | `(tactic| tame1) => `(tactic| with_reducible exact tame_transfer)

theorem tame_resize : Tame (resize E L n k payer sys) := by
  unfold resize resizeLamports resizeRefund resizeFund realloc; simp only; taming
macro_rules | `(tactic| tame1) => `(tactic| with_reducible exact tame_resize)

theorem tame_closeAccount {r : Key} (h : r ≠ k → (L r).lamports + (L k).lamports < two64) :
    Tame (closeAccount L k r) := by
  unfold closeAccount
  split
  · exact tame_error (by decide)
  · rename_i hr
    rw [if_neg (Nat.not_le.mpr (h hr))]
    exact tame_ok _

/-! ## Reading -/

theorem tame_manager (hs : Stores E.program L k A) (hi : Intact A) : Tame (managerOf (L k).data) :=
  tame_is (manager_ok hs hi.1)

theorem tame_ownerOrDelegate {s : Key} {r : Role} (hs : Stores E.program L k A) (hi : Intact A) :
    Tame (ownerOrDelegate (L k).data s r) := by
  unfold ownerOrDelegate
  split
  · exact tame_ok _
  · exact tame_bind (tame_manager hs hi) fun _ _ => by taming

theorem tame_lockAuthority {s : Key} (hs : Stores E.program L k A) (hi : Intact A) :
    Tame (lockAuthority (L k).data s) := by
  unfold lockAuthority
  exact tame_bind (tame_manager hs hi) fun _ _ => by taming

theorem tame_royalties {a s r : Key} (hs : Stores E.program L k A) (hi : Intact A) :
    Tame (processRoyalties E L a s r (L k).data) := by
  unfold processRoyalties
  refine tame_bind (tame_is (hs.get (by decide))) fun o ho => ?_
  rw [hs.get (by decide)] at ho
  cases ho
  split
  · exact tame_pure _
  · rename_i p hp
    obtain ⟨h1, c, h2, h3⟩ := hi.2.2.2 p hp
    obtain ⟨v, hv⟩ := readRoyalties_iff.mpr ⟨h1, c, h2⟩
    refine tame_bind (tame_is hv) fun w hw => ?_
    have hc : w.constraint = c := by
      unfold readRoyalties at hw
      rw [if_neg (by omega)] at hw
      rw [h2] at hw
      cases hw; rfl
    split
    · refine tame_bind (tame_has (evalC_total _ _ ?_)) fun _ _ => by taming
      rw [hc]; exact h3 _ rfl
    · exact tame_pure _

theorem tame_groupAuthority {d : Bytes} {g : Grouping} {au : Key} : Tame (groupAuthority d g au) := by
  unfold groupAuthority; taming
macro_rules | `(tactic| tame1) => `(tactic| with_reducible exact tame_groupAuthority)

theorem extGet_finds (hs : Stores E.program L k A) {t : ExtType} (ht : t ≠ .none) :
    (extGet t ((L k).data.drop assetLen) = .ok none) ∨
    ∃ off p, extGet t ((L k).data.drop assetLen) = .ok (some (off, p)) ∧ lookup t A.exts = some p := by
  obtain ⟨_, _, _, e, h6, h7⟩ := id hs
  rcases extGet_walk h6.walk (Or.inr h7) ht with ⟨g1, g2⟩ | ⟨pre, pl', post, m, g1, g2, g3, g4, g5, g6⟩
  · exact .inl g2
  · exact .inr ⟨_, _, g6, g3⟩

theorem assetGetMut_finds (hs : Stores E.program L k A) {t : ExtType} (ht : t ≠ .none) :
    (assetGetMut t (L k).data = .ok none) ∨
    ∃ off p, assetGetMut t (L k).data = .ok (some (off, p)) ∧ lookup t A.exts = some p := by
  have hg := hs.get ht
  unfold assetGet at hg
  unfold assetGetMut
  cases hf : find t (L k).data with
  | error e => rw [hf] at hg; cases hg
  | ok o =>
    rw [hf] at hg
    cases o with
    | none => exact .inl rfl
    | some c =>
      simp only [bind, Except.bind] at hg ⊢
      cases hp : payloadAt (L k).data c with
      | error e => rw [hp] at hg; cases hg
      | ok p =>
        rw [hp] at hg
        exact .inr ⟨_, _, rfl, (Except.ok.inj hg).symm⟩

/-! ## The instructions -/

theorem proven_asset (hp : Proven E.program L k) (ho : (L k).owner = E.program)
    (hi : Initialized (L k).data) : ∃ A, Stores E.program L k A ∧ Intact A :=
  (hp ho).resolve_right fun h => h.1 hi.2

theorem tame_transferGroup {a s r : Key} {g : Option Key} {d : Bytes} {b : Bool}
    (hg : ∀ x, g = some x → Proven E.program L x ∧ ((L x).owner = E.program → (L x).data ≠ [])) :
    Tame (transferGroupCheck E L a s r g d b) := by
  unfold transferGroupCheck
  split
  · exact tame_ok _
  · split
    · exact tame_ok _
    · split
      · exact tame_error (by decide)
      · rename_i x
        refine tame_bind (tame_require (by decide)) fun _ ho => tame_bind (tame_require (by decide)) fun _ _ =>
          tame_bind (tame_require (by decide)) fun _ _ => ?_
        simp only
        obtain ⟨h1, h2⟩ := hg x rfl
        have ho := require_ok.mp ho
        have h3 : require ((L x).data ≠ []) Err.panic = .ok () := require_ok.mpr (h2 ho)
        refine tame_bind (tame_is h3) fun _ _ => tame_bind (tame_require (by decide))
          fun _ hd => ?_
        obtain ⟨G, hs, hi⟩ := (h1 ho).resolve_right fun h => h.1 (require_ok.mp hd)
        exact tame_bind (tame_royalties hs hi) fun _ _ => tame_pure _

theorem tame_processTransfer {a s r : Key} {g : Option Key} (ha : Proven E.program L a)
    (hg : ∀ x, g = some x → Proven E.program L x ∧ ((L x).owner = E.program → (L x).data ≠ [])) :
    Tame (processTransfer E L a s r g) := by
  unfold processTransfer
  refine tame_bind (tame_require (by decide)) fun _ ho => tame_bind (tame_require (by decide)) fun _ _ => ?_
  simp only
  refine tame_bind (tame_require (by decide)) fun _ hI => ?_
  obtain ⟨A, hs, hi⟩ := proven_asset ha (require_ok.mp ho) (require_ok.mp hI)
  refine tame_bind (tame_royalties hs hi) fun _ _ => tame_bind (tame_require (by decide)) fun _ _ =>
    tame_bind (tame_ownerOrDelegate hs hi) fun _ _ => tame_bind (tame_require (by decide)) fun _ _ => ?_
  split
  · exact tame_pure _
  · exact tame_bind (tame_transferGroup hg) fun _ _ => tame_pure _

theorem tame_processApprove {a o d : Key} {x : DelegateInput} : Tame (processApprove E L a o d x) := by
  unfold processApprove; simp only; taming

theorem tame_processRevoke {a s : Key} {x : DelegateInput} : Tame (processRevoke E L a s x) := by
  unfold processRevoke; simp only; taming

theorem tame_processHandover {a au nu : Key} : Tame (processHandover E L a au nu) := by
  unfold processHandover; simp only; taming

theorem tame_processLock {a s : Key} (ha : Proven E.program L a) : Tame (processLock E L a s) := by
  unfold processLock
  refine tame_bind (tame_require (by decide)) fun _ _ => tame_bind (tame_require (by decide)) fun _ ho => ?_
  simp only
  refine tame_bind (tame_require (by decide)) fun _ hI => ?_
  obtain ⟨A, hs, hi⟩ := proven_asset ha (require_ok.mp ho) (require_ok.mp hI)
  exact tame_bind (tame_lockAuthority hs hi) fun _ _ => tame_pure _

theorem tame_processUnlock {a s : Key} (ha : Proven E.program L a) : Tame (processUnlock E L a s) := by
  unfold processUnlock
  refine tame_bind (tame_require (by decide)) fun _ _ => tame_bind (tame_require (by decide)) fun _ ho => ?_
  simp only
  refine tame_bind (tame_require (by decide)) fun _ hI => ?_
  obtain ⟨A, hs, hi⟩ := proven_asset ha (require_ok.mp ho) (require_ok.mp hI)
  exact tame_bind (tame_lockAuthority hs hi) fun _ _ => tame_pure _

theorem tame_processClose {b r : Key} (hl : Affordable L) : Tame (processClose E L b r) := by
  unfold processClose; simp only
  refine tame_bind (tame_require (by decide)) fun _ _ => tame_bind (tame_require (by decide)) fun _ _ =>
    tame_bind (tame_require (by decide)) fun _ _ => tame_closeAccount fun h => hl _ _ h

theorem tame_grouping {p : Bytes} (hi : Intact A) (h : lookup .grouping A.exts = some p) :
    Tame (readGrouping p) := tame_has (readGrouping_iff.mpr (hi.2.1 p h))

theorem tame_burnGroup {a : Key} {g : Option Key} {d : Bytes}
    (hg : ∀ x, g = some x → Proven E.program L x ∧ IsAsset E.program L x) :
    Tame (burnGroup L a g d) := by
  unfold burnGroup
  split
  · exact tame_ok _
  · split
    · exact tame_error (by decide)
    · rename_i x
      obtain ⟨h1, ho⟩ := hg x rfl
      refine tame_bind (tame_require (by decide)) fun _ _ => tame_bind (tame_require (by decide)) fun _ _ => ?_
      simp only
      obtain ⟨G, hs, hi⟩ := (h1 ho.1).resolve_right fun h => h.1 ho.2.2
      rcases assetGetMut_finds hs (t := .grouping) (by decide) with h | ⟨off, p, h, hp⟩
      · refine tame_bind (tame_is h) fun o ho => ?_
        rw [h] at ho; cases ho
        exact tame_error (by decide)
      · refine tame_bind (tame_is h) fun o ho => ?_
        rw [h] at ho; cases ho
        exact tame_bind (tame_grouping hi hp) fun _ _ => by taming

theorem burnGroup_lamports {a : Key} {g : Option Key} {d : Bytes} {L' : Ledger}
    (h : burnGroup L a g d = .ok L') (x : Key) : (L' x).lamports = (L x).lamports := by
  unfold burnGroup at h
  split at h
  · cases h; rfl
  · split at h
    · cases h
    · rename_i y
      inv at h
      obtain ⟨_, _, o, _, h⟩ := h
      split at h
      · cases h
      · inv at h
        obtain ⟨_, _, _, rfl⟩ := h
        by_cases hx : x = y
        · subst hx; rw [Ledger.setData_same]
        · rw [Ledger.setData_other _ _ hx]

theorem tame_processBurn {a s : Key} {r g : Option Key} (ha : Proven E.program L a) (hl : Affordable L)
    (hg : ∀ x, g = some x → Proven E.program L x ∧ IsAsset E.program L x) :
    Tame (processBurn E L a s r g) := by
  unfold processBurn
  refine tame_bind (tame_require (by decide)) fun _ ho => tame_bind (tame_require (by decide)) fun _ _ => ?_
  simp only
  refine tame_bind (tame_require (by decide)) fun _ hI => ?_
  obtain ⟨A, hs, hi⟩ := proven_asset ha (require_ok.mp ho) (require_ok.mp hI)
  refine tame_bind (tame_ownerOrDelegate hs hi) fun _ _ => tame_bind (tame_require (by decide)) fun _ _ =>
    tame_bind (tame_burnGroup hg) fun L1 h1 => ?_
  have hc : Tame (closeAccount L1 a (r.getD s)) := tame_closeAccount fun h => by
    rw [burnGroup_lamports h1, burnGroup_lamports h1]; exact hl _ _ h
  refine tame_bind (tame_is (hs.get (by decide))) fun o ho => ?_
  rw [hs.get (by decide)] at ho
  cases ho
  split
  · rename_i p hp
    exact tame_bind (tame_grouping hi hp) fun _ _ => tame_bind (tame_require (by decide)) fun _ _ => hc
  · exact hc

theorem tame_processGroup {a g au : Key} (hg : g ≠ a → Proven E.program L g) :
    Tame (processGroup E L a g au) := by
  unfold processGroup
  refine tame_bind (tame_require (by decide)) fun _ _ => tame_bind (tame_require (by decide)) fun _ _ =>
    tame_bind (tame_require (by decide)) fun _ ho => ?_
  simp only
  refine tame_bind (tame_require (by decide)) fun _ _ => tame_bind (tame_require (by decide)) fun _ hne =>
    tame_bind (tame_require (by decide)) fun _ hI => ?_
  obtain ⟨A, hs, hi⟩ := proven_asset (hg (require_ok.mp hne)) (require_ok.mp ho) (require_ok.mp hI)
  refine tame_bind (tame_require (by decide)) fun _ _ => tame_bind (tame_require (by decide)) fun _ _ => ?_
  rcases extGet_finds hs (t := .grouping) (by decide) with h | ⟨off, p, h, hp⟩
  · refine tame_bind (tame_is h) fun o ho => ?_
    rw [h] at ho; cases ho
    exact tame_error (by decide)
  · refine tame_bind (tame_is h) fun o ho => ?_
    rw [h] at ho; cases ho
    exact tame_bind (tame_grouping hi hp) fun _ _ => by taming

theorem tame_processUngroup {a g au : Key} (hg : Proven E.program L g) : Tame (processUngroup E L a g au) := by
  unfold processUngroup
  refine tame_bind (tame_require (by decide)) fun _ _ => tame_bind (tame_require (by decide)) fun _ _ =>
    tame_bind (tame_require (by decide)) fun _ ho => ?_
  simp only
  refine tame_bind (tame_require (by decide)) fun _ _ => tame_bind (tame_require (by decide)) fun _ _ =>
    tame_bind (tame_require (by decide)) fun _ hI => ?_
  obtain ⟨A, hs, hi⟩ := proven_asset hg (require_ok.mp ho) (require_ok.mp hI)
  refine tame_bind (tame_require (by decide)) fun _ _ => ?_
  rcases extGet_finds hs (t := .grouping) (by decide) with h | ⟨off, p, h, hp⟩
  · refine tame_bind (tame_is h) fun o ho => ?_
    rw [h] at ho; cases ho
    exact tame_error (by decide)
  · refine tame_bind (tame_is h) fun o ho => ?_
    rw [h] at ho; cases ho
    exact tame_bind (tame_grouping hi hp) fun _ _ => by taming

theorem tame_setVerified {a c : Key} {b : Bool} (ha : Proven E.program L a) :
    Tame (processSetVerified E L a c b) := by
  unfold processSetVerified
  refine tame_bind (tame_require (by decide)) fun _ _ => tame_bind (tame_require (by decide)) fun _ ho => ?_
  simp only
  refine tame_bind (tame_require (by decide)) fun _ hI => ?_
  obtain ⟨A, hs, hi⟩ := proven_asset ha (require_ok.mp ho) (require_ok.mp hI)
  rcases assetGetMut_finds hs (t := .creators) (by decide) with h | ⟨off, p, h, hp⟩
  · refine tame_bind (tame_is h) fun o ho => ?_
    rw [h] at ho; cases ho
    exact tame_error (by decide)
  · refine tame_bind (tame_is h) fun o ho => ?_
    rw [h] at ho; cases ho
    have := hi.2.2.1 p hp
    have hr : readCreators p = .ok (creatorsFrom (p.length / 34) p) := by
      unfold readCreators; rw [if_neg (by omega)]
    exact tame_bind (tame_is hr) fun _ _ => by taming

theorem tame_processResize {a au p : Key} {x : Strategy} (ha : Proven E.program L a) :
    Tame (processResize E L a au p sys x) := by
  unfold processResize
  refine tame_bind (tame_require (by decide)) fun _ _ => tame_bind (tame_require (by decide)) fun _ ho => ?_
  simp only
  refine tame_bind (tame_require (by decide)) fun _ hI => ?_
  obtain ⟨A, hs, hi⟩ := proven_asset ha (require_ok.mp ho) (require_ok.mp hI)
  refine tame_bind (tame_require (by decide)) fun _ _ => tame_bind (tame_require (by decide)) fun _ _ =>
    tame_bind ?_ fun _ _ => tame_resize
  unfold resizeTarget
  split
  · refine tame_bind ?_ fun _ _ => by taming
    obtain ⟨e, h1, h2⟩ := hs.hasExts
    rcases lastExtension_walk h1 h2 with ⟨h, _⟩ | ⟨_, _, _, _, _, _, _, h⟩
    · exact tame_is h
    · exact tame_is h
  · exact tame_ok _

theorem removeFind_err {t : ExtType} {d : Bytes} {e : Err} : ∀ (f c : Nat), removeFind t d f c = .error e → e = .diverge := by
  intro f
  induction f with
  | zero => intro c h; cases h; rfl
  | succ f ih =>
    intro c h
    rw [removeFind] at h
    split at h
    · simp only at h
      split at h
      · cases h
      · split at h
        · cases h
        · exact ih _ h
    · cases h

theorem tame_processRemove {a au r : Key} {t : ExtType} (ht : t ≠ .none) (ha : Proven E.program L a) :
    Tame (processRemove E L a au r t) := by
  unfold processRemove
  refine tame_bind (tame_require (by decide)) fun _ _ => tame_bind (tame_require (by decide)) fun _ ho => ?_
  simp only
  refine tame_bind (tame_require (by decide)) fun _ hI => ?_
  obtain ⟨A, hs, hi⟩ := proven_asset ha (require_ok.mp ho) (require_ok.mp hI)
  refine tame_bind (tame_require (by decide)) fun _ _ => tame_bind (tame_require (by decide)) fun _ _ =>
    tame_bind ?_ fun o ho => ?_
  · intro e he
    have := removeFind_err _ _ he
    subst this
    exact absurd he (fin_removeFind hs.hasExts.halts)
  · split
    · exact tame_error (by decide)
    · rename_i off bnd
      obtain ⟨_, _, _, e, h6, h7⟩ := id hs
      obtain ⟨pre, p, post, h1, h2, h3, h4, h5⟩ := removeFind_packed h6 h7 ht ho
      simp only at h3 h4 h5
      refine tame_bind ?_ fun _ _ => tame_bind ?_ fun _ _ => tame_resize
      · unfold removeAllowed
        split
        · exact tame_error (by decide)
        · exact tame_error (by decide)
        · have hg := hs.get (t := .grouping) (by decide)
          have hp : lookup .grouping A.exts = some p := by 
            rw [h1]
            clear h1 h3 h4 ho
            induction pre with
            | nil => simp [lookup]
            | cons y ys ih =>
              rw [List.cons_append, lookup, if_neg (h2 y (by simp))]
              exact ih fun z hz => h2 z (by simp [hz])
          refine tame_bind (tame_is hg) fun o ho => ?_
          rw [hg, hp] at ho; cases ho
          exact tame_bind (tame_grouping hi hp) fun _ _ => by taming
        · exact tame_ok _
      · have hle := h4.walk.head
        have := le_roundUp8 (off + 16 + p.length)
        unfold memmove
        split
        · exact tame_ok _
        · rw [if_neg (by omega)]; exact tame_ok _

end Verif
