import Verif.Lemmas.Errors

/-!
# The errors of the instructions have their reasons
-/

namespace Verif

open Verif.Spec

section
variable {E : Env} {L : Ledger} {a s g r o : Key} {rest : List Key} {A : Asset}

theorem noAsset {u v : Unit} {e e' : Err} {x : Key} (ho : require ((L x).owner = E.program) e = .ok u)
    (hi : ¬ Initialized (L x).data) : NoAsset E L x :=
  ⟨require_ok.mp ho, fun h => hi ⟨h.2.1, h.2.2⟩⟩

theorem first_uninit {i : Instr} {u : Unit} {e : Err} (hi : 0 ∈ needsAsset i)
    (ho : require ((L a).owner = E.program) e = .ok u) (h : ¬ Initialized (L a).data) :
    Reason E L (a :: rest) i .uninitialized :=
  ⟨0, hi, a, rfl, require_ok.mp ho, fun hh => h ⟨hh.2.1, hh.2.2⟩⟩

/-! ## Delegates -/

theorem assertDelegate_err {h m : Option Delegate} {k : Key} {x : Role} {e : Err}
    (he : assertDelegate [h, m] k x = .error e) :
    (e = .asset .delegateNotFound ∧ m = none ∧ h = none) ∨
    (e = .asset .invalidDelegate ∧ ∃ y, governing m h = some y ∧ y.address ≠ k) ∨
    (e = .asset .delegateRoleNotActive ∧
      ∃ y, governing m h = some y ∧ y.address = k ∧ ¬ HasRole y x) := by
  have key : ∀ (y : Delegate) (res : Except Err Unit),
      assertDelegateStep k x res (some y) = .error e →
      (e = .asset .invalidDelegate ∧ y.address ≠ k) ∨
      (e = .asset .delegateRoleNotActive ∧ y.address = k ∧ ¬ HasRole y x) := by
    intro y res hy
    unfold assertDelegateStep at hy
    rw [← isActive_iff]
    by_cases h1 : y.address = k <;> by_cases h2 : y.isActive x = true <;> simp [h1, h2] at hy ⊢
    all_goals exact hy.symm
  unfold assertDelegate at he
  simp only [List.foldl_cons, List.foldl_nil] at he
  cases m with
  | some y =>
    rcases key y _ he with ⟨h1, h2⟩ | ⟨h1, h2⟩
    · exact .inr (.inl ⟨h1, y, rfl, h2⟩)
    · exact .inr (.inr ⟨h1, y, rfl, h2⟩)
  | none =>
    rw [show ∀ z, assertDelegateStep k x z none = z from fun _ => rfl] at he
    cases h with
    | some y =>
      rcases key y _ he with ⟨h1, h2⟩ | ⟨h1, h2⟩
      · exact .inr (.inl ⟨h1, y, rfl, h2⟩)
      · exact .inr (.inr ⟨h1, y, rfl, h2⟩)
    | none => exact .inl ⟨(Except.error.inj he).symm, rfl, rfl⟩

/-- The three ways not to be the delegate for locking. -/
def LockReason (E : Env) (L : Ledger) (a s : Key) : AssetError → Prop
  | .delegateNotFound => Asset? E L a fun A =>
      A.owner ≠ s ∧ A.manager = none ∧ A.holderDelegate = none
  | .delegateRoleNotActive => Asset? E L a fun A =>
      ∃ x, governing A.manager A.holderDelegate = some x ∧ x.address = s ∧ ¬ HasRole x .lock
  | .invalidDelegate => Asset? E L a fun A =>
      ∃ x, governing A.manager A.holderDelegate = some x ∧ x.address ≠ s
  | _ => False

theorem blames_lockAuthority : Blames (LockReason E L a s) (lockAuthority (L a).data s) := by
  intro e he
  have clean := clean_managerOf (L a).data
  unfold lockAuthority at he
  cases hm : managerOf (L a).data with
  | error x =>
    rw [hm] at he
    rw [hm] at clean
    exact absurd (congrArg Except.error (Except.error.inj he)) (clean e)
  | ok m =>
    rw [hm] at he
    replace he : (match hDelegateValue (L a).data with
      | some x => assertDelegate [some x, m] s .lock
      | none => if hOwner (L a).data ≠ s then assertDelegate [m] s .lock else pure ()) =
        .error (.asset e) := he
    have go : ∀ h, hDelegateValue (L a).data = h → (h = none → hOwner (L a).data ≠ s) →
        assertDelegate [h, m] s .lock = .error (.asset e) → LockReason E L a s e := by
      intro h hh ho hx
      rcases assertDelegate_err hx with ⟨h1, h2, h3⟩ | ⟨h1, h2⟩ | ⟨h1, h2⟩
      · cases h1
        intro A hs
        refine ⟨?_, ?_, ?_⟩
        · rw [← hs.owner_eq]; exact ho h3
        · rw [← hs.manager hm, h2]
        · rw [← hs.holder, hh, h3]
      · cases h1
        intro A hs
        rw [← hs.manager hm, ← hs.holder, hh]; exact h2
      · cases h1
        intro A hs
        rw [← hs.manager hm, ← hs.holder, hh]; exact h2
    cases hd : hDelegateValue (L a).data with
    | some x =>
      rw [hd] at he
      exact go _ hd (by intro h; cases h) he
    | none =>
      rw [hd] at he
      simp only at he
      by_cases ho : hOwner (L a).data ≠ s
      · rw [if_pos ho] at he
        exact go _ hd (fun _ => ho) he
      · rw [if_neg ho] at he; cases he

theorem blames_lock : Blames (Reason E L (a :: s :: rest) .lock) (processLock E L a s) := by
  unfold processLock
  refine blames_bind (blames_require' (by simp)) fun _ _ => blames_bind (blames_require' (by simp))
    fun _ ho => blames_bind (blames_require (first_uninit (by simp [needsAsset]) ho)) fun _ _ => blames_bind ?_
    fun _ _ => blames_pure _
  intro e he
  have := blames_lockAuthority (E := E) e he
  cases e <;> first | exact this | exact this.elim

theorem blames_unlock : Blames (Reason E L (a :: s :: rest) .unlock) (processUnlock E L a s) := by
  unfold processUnlock
  refine blames_bind (blames_require' (by simp)) fun _ _ => blames_bind (blames_require' (by simp))
    fun _ ho => blames_bind (blames_require (first_uninit (by simp [needsAsset]) ho)) fun _ _ => blames_bind ?_
    fun _ _ => blames_pure _
  intro e he
  have := blames_lockAuthority (E := E) e he
  cases e <;> first | exact this | exact this.elim

/-! ## Approve, revoke, handover, resize, close -/

theorem blames_approve {x : DelegateInput} :
    Blames (Reason E L (a :: s :: rest) (.approve x)) (processApprove E L a s o x) := by
  unfold processApprove
  refine blames_bind (blames_require' (by simp)) fun _ ho =>
    blames_bind (blames_require (first_uninit (by simp [needsAsset]) ho)) fun _ _ =>
    blames_bind (blames_require fun h A hs hh => h (hs.owner_eq.trans hh)) fun _ _ =>
    blames_bind (blames_require' (by simp)) fun _ _ => ?_
  simp only
  split <;> exact blames_pure _

theorem blames_revoke {x : DelegateInput} :
    Blames (Reason E L (a :: s :: rest) (.revoke x)) (processRevoke E L a s x) := by
  unfold processRevoke
  refine blames_bind (blames_require' (by simp)) fun _ _ => blames_bind (blames_require' (by simp))
    fun _ ho => blames_bind (blames_require (first_uninit (by simp [needsAsset]) ho)) fun _ _ =>
    blames_bind (blames_require fun h A hs => ?_) fun _ _ => ?_
  · rw [hs.owner_eq, hs.delegate_eq] at h
    refine ⟨fun hh => h (.inl hh), ?_⟩
    by_cases hd : A.delegate = Key.default
    · exact .inl hd
    · exact .inr fun hh => h (.inr ⟨hd, hh⟩)
  · cases x with
    | all => exact blames_pure _
    | some rs =>
      simp only
      split
      · split <;> exact blames_pure _
      · exact blames_pure _

theorem not_mutable (hs : Stores E.program L a A) (h : ¬ hMutable (L a).data = true) :
    A.mutableByte = 0 := by
  rw [hs.2.2.1]
  unfold hMutable at h
  have : byteAt (L a).data 3 = 0 := by simpa using h
  exact this

theorem blames_handover :
    Blames (Reason E L (a :: s :: rest) .handover) (processHandover E L a s o) := by
  unfold processHandover
  exact blames_bind (blames_require' (by simp)) fun _ _ => blames_bind (blames_require' (by simp))
    fun _ _ => blames_bind (blames_require' (by simp)) fun _ ho =>
    blames_bind (blames_require (first_uninit (by simp [needsAsset]) ho)) fun _ _ =>
    blames_bind (blames_require fun h A hs hh => h (hs.authority_eq.trans hh)) fun _ _ =>
    blames_bind (blames_require fun h A hs => not_mutable hs h) fun _ _ => blames_pure _

theorem blames_resize {sys : Option Key} {x : Strategy} :
    Blames (Reason E L (a :: s :: rest) (.resize x)) (processResize E L a s o sys x) := by
  unfold processResize
  exact blames_bind (blames_require' (by simp)) fun _ _ => blames_bind (blames_require' (by simp))
    fun _ ho => blames_bind (blames_require (first_uninit (by simp [needsAsset]) ho)) fun _ _ =>
    blames_bind (blames_require fun h A hs hh => h (hs.authority_eq.trans hh)) fun _ _ =>
    blames_bind (blames_require fun h A hs => not_mutable hs h) fun _ _ =>
    blames_bind clean_resizeTarget.blames fun _ _ => clean_resize.blames

theorem blames_close : Blames (Reason E L (a :: rest) .close) (processClose E L a r) := by
  unfold processClose
  refine blames_bind (blames_require' (by simp)) fun _ _ => blames_bind (blames_require' (by simp))
    fun _ _ => blames_bind (blames_require fun h => ?_) fun _ _ => clean_closeAccount.blames
  exact ⟨fun hh => h (.inl hh), fun hh => h (.inr hh)⟩

/-! ## Creators -/

theorem blames_verified {v : Bool} {i : Instr} (hi : i = .verify ∨ i = .unverify) :
    Blames (Reason E L (a :: rest) i) (processSetVerified E L a s v) := by
  unfold processSetVerified
  refine blames_bind (blames_require' (by simp)) fun _ _ => blames_bind (blames_require' (by simp))
    fun _ ho => blames_bind (blames_require (first_uninit
      (by rcases hi with rfl | rfl <;> simp [needsAsset]) ho)) fun _ _ =>
    blames_bind (clean_assetGetMut _ _).blames fun x hx => ?_
  cases x with
  | none =>
    refine blames_asset ?_
    have : Asset? E L a fun A => lookup .creators A.exts = none := by
      intro A hs
      cases hl : lookup .creators A.exts with
      | none => rfl
      | some p =>
        obtain ⟨off, ho⟩ := getMut_ok hs (by decide) hl
        rw [hx] at ho; cases ho
    rcases hi with rfl | rfl <;> exact this
  | some q =>
    obtain ⟨off, p⟩ := q
    exact blames_bind (clean_readCreators _).blames fun _ _ =>
      blames_bind (blames_require' (by simp)) fun _ _ => blames_pure _

/-! ## Transfer -/

theorem not_entitled {x : Role} {b : Bool} (hb : ownerOrDelegate (L a).data s x = .ok b)
    (hf : ¬ b = true) (hs : Stores E.program L a A) : A.owner ≠ s ∧ ¬ A.Delegated s x := by
  have ho : A.owner ≠ s := by
    intro ho
    rw [ownerOrDelegate_owner hs ho] at hb
    cases hb; exact hf rfl
  refine ⟨ho, fun hd => ?_⟩
  unfold ownerOrDelegate at hb
  rw [if_neg (by rw [hs.owner_eq]; exact ho)] at hb
  inv at hb
  obtain ⟨m, hm, hb⟩ := hb
  have := (assertDelegate_two (hDelegateValue (L a).data) m s x).mpr (by
    rw [hs.manager hm, hs.holder]; exact hd)
  rw [this] at hb
  exact hf (pure_ok.mp hb).symm

theorem denied {k : Key} (hs : Stores E.program L k A) {e : Err}
    (h : processRoyalties E L a s r (L k).data = .error e) : ¬ RoyaltiesAllow E L a s r A := by
  intro hr
  obtain ⟨b, hb, _⟩ := royalties_ok hs hr
  rw [h] at hb; cases hb

theorem blames_transferGroup {gp : Option Key} {b : Bool} (hg : ∀ x, gp = some x → x = g) :
    Blames (Reason E L (a :: s :: r :: g :: rest) .transfer)
      (transferGroupCheck E L a s r gp (L a).data b) := by
  unfold transferGroupCheck nullable
  by_cases h0 : hGroup (L a).data = Key.default
  · rw [if_pos h0]; exact blames_ok _
  · rw [if_neg h0]
    simp only
    split
    · exact blames_ok _
    · cases gp with
      | none => exact blames_error (by simp)
      | some x =>
        obtain rfl := hg x rfl
        refine blames_bind (blames_require fun h A hs => ⟨?_, .inr ?_⟩) fun _ _ =>
          blames_bind (blames_require fun h A hs => ⟨?_, .inl ?_⟩) fun _ hgx =>
          blames_bind (blames_require' (by simp)) fun _ _ =>
          blames_bind (blames_require' (by simp)) fun _ _ =>
          blames_bind (blames_require fun h A hs => ⟨?_, .inr ?_⟩) fun _ _ =>
          blames_bind (blames_royalties fun h A hs => .inr ⟨?_, fun G hG => denied hG h⟩) fun _ _ =>
          blames_pure _
        · exact fun hh => h0 (hs.group_eq.trans hh)
        · rintro ⟨G, hG⟩; exact h hG.1.1
        · exact fun hh => h0 (hs.group_eq.trans hh)
        · exact fun hh => h (hs.group_eq.trans hh)
        · exact fun hh => h0 (hs.group_eq.trans hh)
        · rintro ⟨G, hG⟩; exact h hG.1.2.2
        · exact hs.group_eq.symm.trans (require_ok.mp hgx)

theorem blames_transfer {gp : Option Key} (hg : ∀ x, gp = some x → x = g) :
    Blames (Reason E L (a :: s :: r :: g :: rest) .transfer) (processTransfer E L a s r gp) := by
  unfold processTransfer
  refine blames_bind (blames_require' (by simp)) fun _ ho => blames_bind (blames_require' (by simp))
    fun _ _ => blames_bind (blames_require (first_uninit (by simp [needsAsset]) ho)) fun _ _ =>
    blames_bind (blames_royalties fun h A hs => .inl (denied hs h)) fun _ _ =>
    blames_bind (blames_require fun h A hs => ?_) fun _ _ =>
    blames_bind clean_ownerOrDelegate.blames fun b hb =>
    blames_bind (blames_require fun h A hs => not_entitled hb h hs) fun _ _ => ?_
  · rw [hs.standard_eq] at h
    exact Decidable.not_not.mp h
  · split
    · exact blames_pure _
    · exact blames_bind (blames_transferGroup hg) fun _ _ => blames_pure _

/-! ## Burn -/

theorem no_extGet {t : ExtType} (ht : t ≠ .none) (hs : Stores E.program L a A)
    (h : extGet t ((L a).data.drop assetLen) = .ok none) : lookup t A.exts = none := by
  cases hl : lookup t A.exts with
  | none => rfl
  | some p =>
    obtain ⟨off, ho⟩ := extGet_ok hs ht hl
    rw [h] at ho; cases ho

theorem blames_burn {rc gp : Option Key} (hg : ∀ x, gp = some x → x = g) :
    Blames (Reason E L (a :: s :: r :: g :: rest) .burn) (processBurn E L a s rc gp) := by
  unfold processBurn
  refine blames_bind (blames_require' (by simp)) fun _ ho => blames_bind (blames_require' (by simp))
    fun _ _ => blames_bind (blames_require (first_uninit (by simp [needsAsset]) ho)) fun _ _ =>
    blames_bind clean_ownerOrDelegate.blames fun b hb =>
    blames_bind (blames_require fun h A hs => not_entitled hb h hs) fun _ _ =>
    blames_bind ?_ fun _ _ => blames_bind (clean_assetGet _ _).blames fun x hx => ?_
  · unfold burnGroup nullable
    by_cases h0 : hGroup (L a).data = Key.default
    · rw [if_pos h0]; exact blames_ok _
    · rw [if_neg h0]
      simp only
      cases gp with
      | none => exact blames_error (by simp)
      | some x =>
        obtain rfl := hg x rfl
        refine blames_bind (blames_require' (by simp)) fun _ hgx =>
          blames_bind (blames_require' (by simp)) fun _ _ =>
          blames_bind (clean_assetGetMut _ _).blames fun y hy => ?_
        cases y with
        | none =>
          refine blames_asset fun A hs => ⟨?_, fun G hG => ?_⟩
          · exact hs.group_eq.symm.trans (require_ok.mp hgx)
          · cases hl : lookup .grouping G.exts with
            | none => exact hl
            | some p =>
              obtain ⟨off, ho⟩ := getMut_ok hG (by decide) hl
              rw [hy] at ho; cases ho
        | some q =>
          obtain ⟨off, p⟩ := q
          exact blames_bind (clean_readGrouping _).blames fun _ _ =>
            blames_bind (blames_require' (by simp)) fun _ _ => blames_pure _
  · cases x with
    | none => exact clean_closeAccount.blames
    | some p =>
      refine blames_bind (clean_readGrouping _).blames fun gr hr =>
        blames_bind (blames_require fun h A hs => ⟨p, ?_, ?_⟩) fun _ _ => clean_closeAccount.blames
      · rw [hs.get (by decide)] at hx
        exact Except.ok.inj hx
      · obtain ⟨h1, h2, _⟩ := readGrouping_ok hr
        rw [readGrouping_total h1 h2] at hr
        cases hr; exact h

/-! ## Group and ungroup -/

theorem blames_groupAuthority {gr : Grouping} {p : Bytes} (hr : readGrouping p = .ok gr)
    {P : AssetError → Prop} (h : (Asset? E L g fun G => lookup .grouping G.exts = some p →
      NotGrouper s G) → P .invalidAuthority) :
    Blames P (groupAuthority (L g).data gr s) := by
  have key : ∀ e, groupAuthority (L g).data gr s = .error e → P .invalidAuthority := by
    intro e he
    refine h fun G hG hp q hq hm => ?_
    obtain rfl : p = q := by
      have := hq.1; rw [hp] at this; exact Option.some.inj this
    rw [readGrouping_total hq.2.1 hq.2.2] at hr
    cases hr
    rw [groupAuthority_ok hG hm] at he
    cases he
  intro e he
  have hk := key _ he
  unfold groupAuthority at he
  split at he
  · split at he
    · unfold require at he
      split at he
      · cases he
      · cases he; exact hk
    · cases he; exact hk
  · cases he

/-- The errors of `process_group`. -/
theorem blames_processGroup {P : AssetError → Prop}
    (h1 : NoAsset E L a → P .uninitialized) (h2 : NoAsset E L g → P .uninitialized)
    (h3 : g ≠ a → hGroup (L a).data ≠ Key.default → P .alreadyInGroup)
    (h4 : g ≠ a → hAuthority (L g).data ≠ hAuthority (L a).data → P .invalidAuthority)
    (h5 : g ≠ a → (Asset? E L g fun G => lookup .grouping G.exts = none) → P .extensionNotFound)
    (h6 : g ≠ a → (Asset? E L g fun G => NotGrouper s G) → P .invalidAuthority)
    (h7 : g ≠ a → (Asset? E L g fun G => ∀ p, IsGroup G p → limitOf p ≠ 0 ∧ limitOf p ≤ membersOf p) →
      P .extensionDataInvalid) : Blames P (processGroup E L a g s) := by
  unfold processGroup
  refine blames_bind (blames_require' (by simp)) fun _ _ => blames_bind (blames_require' (by simp))
    fun _ ho => blames_bind (blames_require' (by simp)) fun _ hg =>
    blames_bind (blames_require fun h => h1 ⟨require_ok.mp ho, fun hh => h ⟨hh.2.1, hh.2.2⟩⟩)
    fun _ _ => blames_bind (blames_require' (by simp)) fun _ hne =>
    blames_bind (blames_require fun h => h2 ⟨require_ok.mp hg, fun hh => h ⟨hh.2.1, hh.2.2⟩⟩)
    fun _ _ => blames_bind (blames_require fun h => h3 (require_ok.mp hne) h) fun _ _ =>
    blames_bind (blames_require fun h => h4 (require_ok.mp hne) h) fun _ _ =>
    blames_bind (clean_extGet _ _).blames fun x hx => ?_
  have hne := require_ok.mp hne
  cases x with
  | none => exact blames_asset (h5 hne fun G hG => no_extGet (by decide) hG hx)
  | some q =>
    obtain ⟨off, p⟩ := q
    have hlk : Asset? E L g fun G => lookup .grouping G.exts = some p := by
      intro G hG
      cases hl : lookup .grouping G.exts with
      | none =>
        obtain ⟨_, _, _, e, h6, h7⟩ := id hG
        rcases extGet_walk (t := .grouping) h6.walk (Or.inr h7) (by decide) with ⟨g1, g2⟩ |
          ⟨pre, pl', post, m, g1, g2, g3, g4, g5, g6⟩
        · rw [show assetLen = 168 from rfl, g2] at hx; cases hx
        · rw [g3] at hl; cases hl
      | some q =>
        obtain ⟨off, ho⟩ := extGet_ok hG (by decide) hl
        rw [hx] at ho; cases ho; rfl
    refine blames_bind (clean_readGrouping _).blames fun gr hr =>
      blames_bind (blames_groupAuthority (E := E) (L := L) hr fun h => h6 hne fun G hG =>
        h G hG (hlk G hG)) fun _ _ =>
      blames_bind (blames_require fun h => h7 hne fun G hG p' hp' => ?_) fun _ _ => blames_pure _
    obtain rfl : p = p' := by
      have := hp'.1; rw [hlk G hG] at this; exact Option.some.inj this
    rw [readGrouping_total hp'.2.1 hp'.2.2] at hr
    cases hr
    exact ⟨fun hh => h (.inl hh), by
      by_contra hc
      exact h (.inr (by simp only; omega))⟩

theorem blames_group : Blames (Reason E L (a :: g :: s :: rest) .group) (processGroup E L a g s) :=
  blames_processGroup (fun h => ⟨0, by decide, a, rfl, h⟩) (fun h => ⟨1, by decide, g, rfl, h⟩)
    (fun _ h A hs hh => h (hs.group_eq.trans hh))
    (fun _ h A hA G hG => .inl fun hh => h (by rw [hA.authority_eq, hG.authority_eq, hh]))
    (fun _ h => h) (fun _ h _ _ G hG => .inr (h G hG)) (fun _ h => h)

theorem blames_ungroup :
    Blames (Reason E L (a :: g :: s :: rest) .ungroup) (processUngroup E L a g s) := by
  unfold processUngroup
  refine blames_bind (blames_require' (by simp)) fun _ _ => blames_bind (blames_require' (by simp))
    fun _ ho => blames_bind (blames_require' (by simp)) fun _ hg =>
    blames_bind (blames_require (first_uninit (by simp [needsAsset]) ho))
    fun _ _ => blames_bind (blames_require' (by simp)) fun _ hne =>
    blames_bind (blames_require fun h => ⟨1, by decide, g, rfl, require_ok.mp hg,
      fun hh => h ⟨hh.2.1, hh.2.2⟩⟩)
    fun _ _ => blames_bind (blames_require' (by simp)) fun _ _ =>
    blames_bind (clean_extGet _ _).blames fun x hx => ?_
  cases x with
  | none => exact blames_asset fun G hG => no_extGet (by decide) hG hx
  | some q =>
    obtain ⟨off, p⟩ := q
    refine blames_bind (clean_readGrouping _).blames fun gr hr =>
      blames_bind (blames_groupAuthority (E := E) (L := L) hr fun h G hG => h G hG ?_) fun _ _ =>
        blames_pure _
    cases hl : lookup .grouping G.exts with
    | none =>
      obtain ⟨_, _, _, e, h6, h7⟩ := id hG
      rcases extGet_walk (t := .grouping) h6.walk (Or.inr h7) (by decide) with ⟨g1, g2⟩ |
        ⟨pre, pl', post, m, g1, g2, g3, g4, g5, g6⟩
      · rw [show assetLen = 168 from rfl, g2] at hx; cases hx
      · rw [g3] at hl; cases hl
    | some q =>
      obtain ⟨off, ho⟩ := extGet_ok hG (by decide) hl
      rw [hx] at ho; cases ho; rfl

end

end Verif
