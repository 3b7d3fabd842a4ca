import Verif.Lemmas.Reasons
import Verif.Lemmas.Edits

/-!
# The errors of the instructions on extensions have their reasons
-/

namespace Verif

open Verif.Spec

variable {E : Env} {L : Ledger} {a s g r o : Key} {rest : List Key} {A : Asset}
variable {payer sys : Option Key} {P : AssetError → Prop}

/-! ## Headers -/

theorem knownAt_iff {d : Bytes} {c : Nat} :
    KnownAt d c ↔ c + 16 ≤ d.length ∧ ∃ t, t ≠ .none ∧ ExtType.ofU32 (hdrAt d c).ty = some t := by
  constructor
  · rintro ⟨h1, t, h2, h3⟩
    exact ⟨h1, t, h2, by rw [show (hdrAt d c).ty = t.toU32 from h3, ofU32_toU32]⟩
  · rintro ⟨h1, t, h2, h3⟩
    exact ⟨h1, t, h2, toU32_ofU32 h3⟩

theorem findFrom_follow {t : ExtType} {d : Bytes} {n c m : Nat}
    (h : findFrom t d n c = .ok (some m)) :
    Follow d c m ∧ m + 16 ≤ d.length ∧ leNat (slice d m 4) = t.toU32 := by
  induction n generalizing c with
  | zero => cases h
  | succ n ih =>
    rw [findFrom] at h
    split at h
    · rename_i hc
      simp only at h
      split at h
      · rename_i ht
        cases h
        exact ⟨.here _, hc, toU32_ofU32 ht⟩
      · split at h
        · cases h
        · rename_i h0
          obtain ⟨g1, g2, g3⟩ := ih h
          refine ⟨.next hc (fun hh => h0 ?_) g1, g2, g3⟩
          rw [show (hdrAt d c).ty = 0 from hh]; rfl
    · cases h

theorem contains_header {t : ExtType} {d : Bytes} (h : assetContains t d = .ok true) :
    HasHeader d t := by
  unfold assetContains find at h
  inv at h
  obtain ⟨r, h1, h2⟩ := h
  cases r with
  | none => cases h2
  | some m => exact ⟨m, findFrom_follow h1⟩

theorem lastFrom_follow {d : Bytes} {n c : Nat} {l r : Option (Hdr × Nat)}
    (h : lastFrom d n c l = .ok r) :
    (r = l ∧ ¬ KnownAt d c) ∨ (KnownAt d c ∧ ∃ m, Follow d c m ∧ KnownAt d m ∧
      ¬ KnownAt d (leNat (slice d (m + 8) 4)) ∧ r = some (hdrAt d m, m + 16)) := by
  induction n generalizing c l with
  | zero => cases h
  | succ n ih =>
    rw [lastFrom] at h
    rw [knownAt_iff (c := c)]
    split at h
    · rename_i hc
      simp only at h
      split at h
      · rename_i ht
        cases h
        exact .inl ⟨rfl, fun ⟨_, t, h2, h3⟩ => h2 (by rw [ht] at h3; cases h3; rfl)⟩
      · rename_i ht
        cases h
        exact .inl ⟨rfl, fun ⟨_, t, h2, h3⟩ => by rw [ht] at h3; cases h3⟩
      · rename_i t hn ht
        have hk : ∃ t, t ≠ .none ∧ ExtType.ofU32 (hdrAt d c).ty = some t :=
          ⟨t, fun hh => hn (by rw [← hh]), ht⟩
        refine .inr ⟨⟨hc, hk⟩, ?_⟩
        rcases ih h with ⟨g1, g2⟩ | ⟨_, m, g2, g3⟩
        · exact ⟨c, .here _, knownAt_iff.mpr ⟨hc, hk⟩, g2, g1⟩
        · refine ⟨m, .next hc (fun hh => ?_) g2, g3⟩
          obtain ⟨t, h2, h3⟩ := hk
          rw [show (hdrAt d c).ty = 0 from hh] at h3
          cases h3
          exact h2 rfl
    · rename_i hc
      cases h
      exact .inl ⟨rfl, fun hh => hc hh.1⟩

theorem lastExtension_some {d : Bytes} {h : Hdr} {off : Nat}
    (hl : lastExtension d = .ok (some (h, off))) : LastData d off h.len := by
  rcases lastFrom_follow hl with ⟨h1, _⟩ | ⟨_, m, h1, h2, h3, h4⟩
  · cases h1
  · cases h4
    exact ⟨m, h1, h2, h3, rfl, rfl⟩

theorem lastExtension_none {d : Bytes} (hl : lastExtension d = .ok none) : ¬ KnownAt d 168 := by
  rcases lastFrom_follow hl with ⟨_, h1⟩ | ⟨_, m, _, _, _, h4⟩
  · exact h1
  · cases h4

theorem firstExtension_none {d : Bytes} (h : firstExtension d = none) : ¬ KnownAt d 168 := by
  intro hk
  obtain ⟨h1, t, h2, h3⟩ := knownAt_iff.mp hk
  unfold firstExtension at h
  rw [if_pos (show assetLen + extLen ≤ d.length from h1)] at h
  simp only at h
  rw [show ExtType.ofU32 (hdrAt d assetLen).ty = some t from h3] at h
  cases t <;> first | exact h2 rfl | cases h

theorem firstExtension_some {d : Bytes} {q : Hdr × Nat} (h : firstExtension d = some q) :
    ∃ t, t ≠ .none ∧ ExtType.ofU32 q.1.ty = some t := by
  unfold firstExtension at h
  split at h
  · simp only at h
    split at h
    · cases h
    · rename_i t hn ht
      cases h
      exact ⟨t, fun hh => hn (by rw [← hh]), ht⟩
    · cases h
  · cases h

/-! ## Allocate -/

theorem blames_processAllocate {x : ExtInput}
    (h1 : (L a).data ≠ [] → (L a).data.length < 168 → P .invalidAccountLength)
    (h2 : InUse L a → P .alreadyInitialized)
    (h3 : HasHeader (L a).data x.ty → P .alreadyInitialized)
    (h4 : ∀ off n, LastData (L a).data off n → (L a).data.length < off + n →
      P .incompleteExtensionData)
    (h5 : ∀ p, x.data = some p → x.length.toNat < p.length → P .extensionLengthInvalid) :
    Blames P (processAllocate E L a payer sys x) := by
  unfold processAllocate
  refine blames_bind (blames_require' (by simp)) fun _ _ => blames_bind ?_ fun q _ => ?_
  · unfold allocateOffset
    simp only
    split
    · exact blames_ok _
    · rename_i hd
      refine blames_bind (blames_require' (by simp)) fun _ _ =>
        blames_bind (blames_require fun h => h1 hd (Nat.lt_of_not_le h)) fun _ _ =>
        blames_bind (blames_require fun h => h2 ⟨hd, h⟩) fun _ _ =>
        blames_bind (clean_assetContains _ _).blames fun c hc =>
        blames_bind (blames_require fun h => h3 ?_) fun _ _ =>
        blames_bind (clean_lastExtension _).blames fun l hl => ?_
      · cases c with
        | false => exact absurd rfl h
        | true => exact contains_header hc
      · cases l with
        | none => exact blames_pure _
        | some l =>
          obtain ⟨hh, off⟩ := l
          exact blames_bind (blames_require fun h => h4 off hh.len (lastExtension_some hl)
            (by omega)) fun _ _ => blames_pure _
  · obtain ⟨ex, off⟩ := q
    simp only
    cases hx : x.data with
    | none => exact clean_save.blames
    | some p =>
      refine blames_bind (blames_require fun h => h5 p hx ?_) fun _ _ => clean_save.blames
      have := Nat.mod_le p.length two32
      omega

theorem blames_allocate {x : ExtInput} :
    Blames (Reason E L (a :: rest) (.allocate x)) (processAllocate E L a payer sys x) :=
  blames_processAllocate (fun h1 h2 => ⟨h1, h2⟩) .inl .inr (fun off n h1 h2 => ⟨off, n, h1, h2⟩)
    fun p h1 h2 => ⟨p, h1, h2⟩

/-! ## Write -/

theorem blames_write {p q : Key} {x : WriteInput} :
    Blames (Reason E L (a :: rest) (.write x)) (processWrite E L a p q x) := by
  have e168 : assetLen = 168 := rfl
  unfold processWrite
  refine blames_bind (blames_require' (by simp)) fun _ _ => blames_bind (blames_require' (by simp))
    fun _ _ => blames_bind (blames_require' (by simp)) fun _ _ =>
    blames_bind (blames_require' (by simp)) fun _ _ =>
    blames_bind (blames_require fun h => .inl (Nat.lt_of_not_le h)) fun _ hlen =>
    blames_bind (blames_require fun h => ⟨fun hn => ?_, h⟩) fun _ _ =>
    blames_bind (clean_lastExtension _).blames fun l hl => ?_
  · have := require_ok.mp hlen
    rw [hn, e168] at this
    simp at this
  · cases l with
    | none => exact blames_asset (.inl (lastExtension_none hl))
    | some l =>
      obtain ⟨hh, off⟩ := l
      have hlast := lastExtension_some hl
      refine blames_bind (blames_require fun h => .inr ⟨off, hh.len, hlast, Nat.lt_of_not_le h⟩)
        fun _ hle => blames_bind clean_resize.blames fun L1 hr => blames_bind clean_memcpy.blames
        fun d1 hm => ?_
      split
      · exact blames_pure _
      · refine blames_bind ?_ fun _ _ => blames_pure _
        unfold writeValidate
        refine blames_bind (clean_lastExtension _).blames fun l2 hl2 => ?_
        cases l2 with
        | none =>
          refine blames_asset ?_
          by_cases hoff : off < 184
          · exact .inr ⟨off, hh.len, hlast, hoff⟩
          · exfalso
            refine lastExtension_none hl2 ?_
            have hk : KnownAt (L a).data 168 := by
              rcases lastFrom_follow hl with ⟨h1, _⟩ | ⟨h1, _⟩
              · cases h1
              · exact h1
            have hst : 184 ≤ (if x.overwrite then off else (L a).data.length) := by
              have := hk.1
              split <;> omega
            generalize (if x.overwrite = true then off else (L a).data.length) = st at hm hst
            unfold memcpy at hm
            split at hm
            · cases hm
            · split at hm
              · cases hm
              · rename_i _ h2
                cases hm
                obtain ⟨_, hd, _⟩ := resize_eff hr
                obtain ⟨h168, t, ht, hty⟩ := hk
                refine ⟨by rw [length_splice (by omega)]; omega, t, ht, ?_⟩
                rw [slice_splice_disjoint (by omega) (.inl (by omega)), ← hty]
                refine congrArg leNat (slice_congr fun i hi => ?_)
                rw [hd] at h2 ⊢
                rw [length_reallocBytes] at h2
                exact getElem?_reallocBytes (by omega) (by omega)
        | some l2 =>
          obtain ⟨h2, off2⟩ := l2
          simp only
          split
          · exact blames_error (by simp)
          · split
            · exact blames_error (by simp)
            · exact blames_bind (blames_mapLife (clean_onCreate _ _ _) fun _ => trivial)
                fun _ _ => blames_pure _

/-! ## Create -/

theorem blames_allocateAll {xs : List ExtInput} {L : Ledger}
    (h : xs ≠ [] → P .invalidAccountLength ∧ P .alreadyInitialized ∧ P .incompleteExtensionData)
    (h5 : ∀ x ∈ xs, ∀ p, x.data = some p → x.length.toNat < p.length → P .extensionLengthInvalid) :
    Blames P (allocateAll E a payer sys xs L) := by
  induction xs generalizing L with
  | nil => exact blames_ok _
  | cons x xs ih =>
    obtain ⟨h1, h2, h3⟩ := h (by simp)
    exact blames_bind (blames_processAllocate (fun _ _ => h1) (fun _ => h2) (fun _ => h2)
      (fun _ _ _ _ => h3) fun p => h5 x (by simp) p) fun _ _ =>
      ih (fun _ => ⟨h1, h2, h3⟩) fun y hy => h5 y (by simp [hy])

theorem blames_createValidate {au : Key} {n : Nat} {d : Bytes} {off : Nat}
    (h : P .extensionDataInvalid) : Blames P (createValidate au n d off) := by
  induction n generalizing d off with
  | zero => exact blames_error (by simp)
  | succ n ih =>
    rw [createValidate]
    split
    · simp only
      split
      · exact blames_ok _
      · exact blames_asset h
      · split
        · exact blames_asset h
        · split
          · exact blames_asset h
          · split
            · exact blames_error (by simp)
            · exact blames_bind (blames_mapLife (clean_onCreate _ _ _) fun _ => h) fun _ _ =>
                blames_bind ih fun _ _ => blames_pure _
    · exact blames_ok _

theorem blames_createProxyCheck {d : Bytes} {x : Standard} (h : P .extensionDataInvalid) :
    Blames P (createProxyCheck E a d x) := by
  unfold createProxyCheck
  refine blames_bind (clean_assetGet _ _).blames fun q _ => ?_
  cases q with
  | none =>
    simp only
    split
    · exact blames_asset h
    · exact blames_pure _
  | some p =>
    refine blames_bind (clean_readProxy _).blames fun _ _ => ?_
    split
    · split
      · exact blames_error (by simp)
      · exact blames_require' (by simp)
    · exact blames_asset h

theorem noAsset_congr {L L' : Ledger} {x : Key} (h : NoAsset E L x)
    (hd : (L' x).data = (L x).data) (ho : (L' x).owner = (L x).owner) : NoAsset E L' x := by
  unfold NoAsset IsAsset assetAt at *
  rw [hd, ho]; exact h

theorem asset?_congr {L L' : Ledger} {x : Key} {Q : Asset → Prop} (h : Asset? E L x Q)
    (hd : (L' x).data = (L x).data) (ho : (L' x).owner = (L x).owner) : Asset? E L' x Q :=
  fun A hs => h A (hs.congr ho.symm hd.symm)

theorem blames_create {x : CreateInput} {au ga : Key} :
    Blames (Reason E L (a :: au :: o :: g :: ga :: rest) (.create x))
      (processCreate E L a au o (optAcc E g) (optAcc E ga) payer sys x) := by
  have em : maxIncrease = 10240 := rfl
  unfold processCreate
  refine blames_bind (blames_require' (by simp)) fun _ _ => blames_bind ?_ fun L1 h1 =>
    blames_bind (blames_allocateAll ?_ ?_) fun L2 h2 => blames_bind (blames_require' (by simp))
    fun _ hl => blames_bind (blames_createValidate trivial) fun ⟨d, ts⟩ h3 => ?_
  · unfold createPrepare
    simp only
    split
    · exact clean_createAccount.blames
    · rename_i hd
      exact blames_bind (blames_require' (by simp)) fun _ _ =>
        blames_bind (blames_require fun h => .inl ⟨hd, Nat.lt_of_not_le h⟩) fun _ _ =>
        blames_bind (blames_require fun h => .inl ⟨hd, h⟩) fun _ _ => blames_pure _
  · intro hne
    have : BringsExtensions x := by
      intro hh
      unfold asked at hh
      rw [hh] at hne
      exact hne rfl
    exact ⟨.inr this, .inr this, this⟩
  · intro e he p hp hlt
    exact ⟨e, (createOrder_perm _).mem_iff.mp he, p, hp, hlt⟩
  · simp only
    refine blames_bind (blames_require fun _ => trivial) fun _ _ =>
      blames_bind (blames_createProxyCheck trivial) fun _ _ => ?_
    cases hg : optAcc E g with
    | none => exact blames_pure _
    | some g' =>
      have hgg : g' = g := by
        unfold optAcc at hg
        split at hg
        · cases hg
        · cases hg; rfl
      subst hgg
      obtain ⟨e1, o1, hprev⟩ := createPrepare_eff h1
      obtain ⟨e2, o2⟩ := allocateAll_eff h2 o1
      have hl := require_ok.mp hl
      obtain ⟨es0, es, e, w0, n0, w1, n1, rfl, hf, hlen, hsame, hpack⟩ := createValidate_walk h3 hl
      have e168 : assetLen = 168 := rfl
      obtain ⟨hv, hvl, hdrop⟩ := view_createHeader (d := d) (by omega) o au x
      have hpre := view_prefix (d := (L2 a).data) (d' := d) fun i hi => hsame i (Or.inl hi)
      have hnew : ¬ NoAsset E (L2.setData a (createHeader d o au x)) a := by
        rintro ⟨_, h⟩
        refine h ⟨by rw [Ledger.setData_same]; exact o2, ?_, ?_⟩
        · rw [Ledger.setData_same]; show 168 ≤ (createHeader d o au x).length; omega
        · unfold assetAt; rw [Ledger.setData_same]; show (view (createHeader d o au x)).disc = 1
          rw [hv]
      have hold : g' ≠ a → (L g').data = (L2.setData a (createHeader d o au x) g').data ∧
          (L g').owner = (L2.setData a (createHeader d o au x) g').owner := by
        intro hne
        rw [Ledger.setData_other _ _ hne]
        exact ⟨((e2.data _ hne).1.trans (e1.data _ hne).1).symm,
          ((e2.data _ hne).2.trans (e1.data _ hne).2).symm⟩
      have hau : hAuthority (L2.setData a (createHeader d o au x) a).data = au := by
        rw [Ledger.setData_same]
        show (view (createHeader d o au x)).authority = au
        rw [hv]
      have hgr : (optAcc E ga).getD au = createGrouper E au ga := by
        unfold optAcc createGrouper; split <;> rfl
      refine blames_processGroup (fun h => absurd h hnew) (fun h => ?_) (fun hne h => ?_)
        (fun hne h => ?_) (fun hne h => asset?_congr h (hold hne).1 (hold hne).2)
        (fun hne h => ?_) (fun _ _ => trivial)
      · have hne : g' ≠ a := by rintro rfl; exact hnew h
        exact ⟨3, by simp [needsAsset], g', rfl, noAsset_congr h (hold hne).1 (hold hne).2⟩
      · rintro ⟨q1, q2, q3, es', q4⟩
        obtain ⟨r1, r2⟩ := createPrepare_unborn h1 q4 (by omega)
        obtain ⟨_, ⟨hb, _⟩, _⟩ := allocateAll_buffer h2 r1 (by omega) r2 (fun y hy =>
          q3 y ((createOrder_perm _).mem_iff.mp hy)) ⟨e, w0, n0⟩
        refine h ?_
        rw [Ledger.setData_same]
        show (view (createHeader d o au x)).group = Key.default
        rw [hv, hpre]
        exact (view_blank hb).2.1
      · refine fun G hG => .inl fun hh => h ?_
        rw [hau, ← (hold hne).1, hG.authority_eq, hh]
      · have := asset?_congr h (hold hne).1 (hold hne).2
        refine fun G hG => .inr ?_
        rw [← hgr]; exact this G hG

/-! ## Update -/

theorem blames_updateFinish {t : ExtType} {off : Nat} {cur : Option (Nat × Nat)} {pl : Bytes}
    (h : cur ≠ none → lastExtension (L a).data = .ok none → P .extensionNotFound) :
    Blames P (updateFinish E L a payer sys t off cur pl) := by
  unfold updateFinish
  refine blames_bind ?_ fun _ _ => blames_bind clean_writeHdr.blames fun _ _ =>
    blames_bind (clean_fixBoundaries _ _ _ _).blames fun _ _ =>
    blames_bind clean_copyData.blames fun _ _ => blames_pure _
  unfold updateMove
  cases cur with
  | none => exact clean_resize.blames
  | some c =>
    obtain ⟨cl, b⟩ := c
    simp only
    split
    · exact blames_ok _
    · refine blames_bind (clean_lastExtension _).blames fun l hl => ?_
      cases l with
      | none => exact blames_asset (h (by simp) hl)
      | some l =>
        exact blames_bind clean_resizeIf.blames fun _ _ => blames_bind clean_memmove.blames
          fun _ _ => clean_resizeIf.blames

/-- A found extension is followed by a last one. -/
theorem found_last {p : Key} {t : ExtType} {off : Nat} {cur : Option (Nat × Nat)}
    (hs : Stores p L a A) (ht : t ≠ .none)
    (hf : updateFind t (L a).data ((L a).data.length + 1) assetLen = .ok (off, cur))
    (hc : cur ≠ none) : lastExtension (L a).data ≠ .ok none := by
  intro hl
  obtain ⟨_, _, _, e, h6, h7⟩ := id hs
  rcases lastExtension_walk h6.walk (.inr h7) with ⟨_, h⟩ | ⟨_, _, _, _, _, _, _, h⟩
  · rcases updateFind_packed h6 (.inr h7) ht hf with ⟨g, _⟩ | ⟨_, _, _, g, _⟩
    · exact hc g
    · rw [h] at g; simp at g
  · rw [hl] at h; cases h

theorem blames_updateValidate {t : ExtType} {b : Bytes} {c : Option Bytes} {au : Key}
    (h : (∀ v, updateValidate t b c au ≠ .ok v) → P .extensionDataInvalid) :
    Blames P (updateValidate t b c au) := by
  cases hv : updateValidate t b c au with
  | ok v => exact blames_ok _
  | error e =>
    intro e' he'
    have hx : Blames (fun e => e = .extensionDataInvalid) (updateValidate t b c au) := by
      unfold updateValidate
      cases c with
      | some old => exact blames_mapLife (clean_onUpdate _ _ _ _) fun _ => rfl
      | none =>
        cases t <;> first
          | exact blames_asset rfl
          | exact blames_mapLife (clean_onCreate _ _ _) fun _ => rfl
    rw [hx e' (hv.trans he')]
    exact h fun v hh => by rw [hv] at hh; cases hh

theorem blames_update {x : UpdateInput} {b : Key} :
    Blames (Reason E L (a :: s :: b :: rest) (.update x))
      (processUpdate E L a s (optAcc E b) payer sys x) := by
  unfold processUpdate
  refine blames_bind (blames_require' (by simp)) fun _ _ => blames_bind (blames_require' (by simp))
    fun _ ho => blames_bind (blames_require (first_uninit (by simp [needsAsset]) ho)) fun _ _ =>
    blames_bind (blames_require fun h A hs hh => h (hs.authority_eq.trans hh)) fun _ _ =>
    blames_bind (blames_require fun h A hs => not_mutable hs h) fun _ _ => ?_
  have hst := fun A (hs : Stores E.program L a A) => stores_updateHeader hs x
  generalize hL1 : L.setData a (updateHeader (L a).data x) = L1 at hst
  have hoth : ∀ y, y ≠ a → L1 y = L y := fun y hy => by rw [← hL1, Ledger.setData_other _ _ hy]
  cases hx : x.extension with
  | none =>
    cases hb : optAcc E b with
    | none => exact blames_pure _
    | some b' =>
      have hbb : b' = b := by
        unfold optAcc at hb
        split at hb
        · cases hb
        · cases hb; rfl
      subst hbb
      simp only
      unfold updateBuffer
      refine blames_bind (blames_require' (by simp)) fun _ _ =>
        blames_bind (blames_require' (by simp)) fun _ hne => ?_
      have hba := hoth b' (require_ok.mp hne)
      rw [hba]
      refine blames_bind (blames_require fun h => ⟨hx, Nat.lt_of_not_le h⟩) fun _ hlen =>
        blames_bind (blames_require fun h => ⟨hx, fun hn => ?_, h⟩) fun _ _ => ?_
      · have := require_ok.mp hlen
        rw [hn] at this
        simp [assetLen] at this
      · cases hf : firstExtension (L b').data with
        | none => exact blames_asset fun _ _ => .inl ⟨hx, firstExtension_none hf⟩
        | some q =>
          obtain ⟨hh, off0⟩ := q
          obtain ⟨t, ht, hty⟩ := firstExtension_some hf
          simp only at hty ⊢
          rw [hty]
          have hinv : Reason E L (a :: s :: b' :: rest) (.update x) .extensionDataInvalid :=
            fun _ _ e he => by rw [hx] at he; cases he
          refine blames_bind (clean_updateFind _ _ _ _).blames fun q hq => ?_
          obtain ⟨off, cur⟩ := q
          refine blames_bind (blames_require fun _ => hinv) fun _ _ =>
            blames_bind (blames_require' (by simp)) fun _ _ =>
            blames_bind clean_currentPayload.blames fun _ _ =>
            blames_bind (blames_updateValidate fun _ => hinv) fun v _ =>
            blames_bind (blames_require' (by simp)) fun _ _ =>
            blames_updateFinish fun hc hl A hs => ?_
          rw [Ledger.setData_other _ _ (Ne.symm (require_ok.mp hne))] at hl
          exact absurd hl (found_last (hst A hs) ht hq hc)
  | some e =>
    cases hb : optAcc E b with
    | some b' => exact blames_error (by simp)
    | none =>
      simp only
      unfold updateArgs
      refine blames_bind (clean_updateFind _ _ _ _).blames fun q hq => ?_
      obtain ⟨off, cur⟩ := q
      -- every update that could be stored is the one the checks compute
      have hpay : ∀ A, Stores E.program L a A → ∀ p, UpdatesTo s e (lookup e.ty A.exts) p →
          argsPayload (L1 a).data off cur s e = .ok p ∧ p.length = e.length.toNat := by
        intro A hs p hp
        obtain ⟨_, _, _, e', h6, h7⟩ := hst A hs
        unfold argsPayload
        unfold UpdatesTo at hp
        cases hd : e.data with
        | none => rw [hd] at hp; exact ⟨by rw [hp.1], by rw [hp.1, hp.2]; rfl⟩
        | some new =>
          rw [hd] at hp
          have ht : e.ty ≠ .none := fun ht => by
            have := hp.1
            rw [ht] at this
            exact this
          refine ⟨?_, hp.2.1⟩
          simp only
          inv
          exact ⟨_, currentPayload_live h6 (.inr h7) ht hq,
            (updateValidate_iff ht).mpr ⟨hp.1, hp.2.2.2.1, hp.2.2.2.2, hp.2.2.1⟩⟩
      refine blames_bind ?_ fun pl hpl => blames_bind (blames_require fun h A hs e' he' p hp => ?_)
        fun _ _ => blames_bind (blames_require fun h => ?_) fun _ _ =>
        blames_updateFinish fun hc hl A hs => ?_
      · have hno : (∀ v, argsPayload (L1 a).data off cur s e ≠ .ok v) →
            Reason E L (a :: s :: b :: rest) (.update x) .extensionDataInvalid := by
          intro h A hs e' he' p hp
          rw [hx] at he'
          cases he'
          exact h p (hpay A hs p hp).1
        unfold argsPayload at hno ⊢
        cases hd : e.data with
        | none => exact blames_ok _
        | some new =>
          rw [hd] at hno
          refine blames_bind clean_currentPayload.blames fun old hold =>
            blames_updateValidate fun h => hno fun v hv => ?_
          simp only at hv
          inv at hv
          obtain ⟨old', h1, h2⟩ := hv
          rw [hold] at h1
          cases h1
          exact h v h2
      · rw [hx] at he'
        cases he'
        obtain ⟨h1, h2⟩ := hpay A hs p hp
        rw [hpl] at h1
        cases h1
        omega
      · unfold argsPayload at hpl
        cases hd : e.data with
        | none => rw [hd] at hpl; cases hpl; simp at h
        | some new =>
          rw [hd] at hpl
          simp only at hpl
          inv at hpl
          obtain ⟨_, _, h2⟩ := hpl
          have := updateValidate_length h2
          exact ⟨e, new, hx, hd, by omega⟩
      · by_cases ht : e.ty = .none
        · exact .inr ⟨e, hx, ht⟩
        · exact absurd hl (found_last (hst A hs) ht hq hc)

/-! ## Remove -/

theorem blames_remove {t : ExtType} : Blames
    (fun e => Reason E L (a :: s :: rest) (.remove t) e ∨
      (e = .extensionNotFound ∧ Overlooked E L (a :: s :: rest) (.remove t)))
    (processRemove E L a s r t) := by
  unfold processRemove
  refine blames_bind (blames_require' (by simp)) fun _ _ => blames_bind (blames_require' (by simp))
    fun _ ho => blames_bind (blames_require fun h => .inl
      (first_uninit (by simp [needsAsset]) ho h)) fun _ _ =>
    blames_bind (blames_require fun h => .inl fun A hs hh => h (hs.authority_eq.trans hh)) fun _ _ =>
    blames_bind (blames_require fun h => .inl fun A hs => not_mutable hs h) fun _ _ =>
    blames_bind (clean_removeFind _ _ _ _).blames fun f hf => ?_
  cases f with
  | none =>
    refine blames_asset (.inr ⟨rfl, t, a, _, rfl, rfl, fun A hs => ?_⟩)
    cases hl : lookup t A.exts with
    | none => exact .inl hl
    | some q =>
      refine .inr fun hfo => ?_
      obtain ⟨_, _, _, e, h6, h7⟩ := hs
      obtain ⟨_, _, g, _⟩ := removeFind_live h6 hl (by
        unfold Followed Tight at hfo
        rw [← h6.end_eq] at hfo
        exact hfo)
      rw [hf] at g; cases g
  | some q =>
    obtain ⟨off, b⟩ := q
    refine blames_bind ?_ fun _ _ => blames_bind clean_memmove.blames fun _ _ => clean_resize.blames
    unfold removeAllowed
    split
    · exact blames_asset (.inl (.inl rfl))
    · exact blames_asset (.inl (.inr rfl))
    · refine blames_bind (clean_assetGet _ _).blames fun y hy => ?_
      cases y with
      | none => exact blames_error (by simp)
      | some p =>
        refine blames_bind (clean_readGrouping _).blames fun gr hr =>
          blames_require fun h => .inl ⟨rfl, fun A hs => ⟨p, ?_, ?_⟩⟩
        · rw [hs.get (by decide)] at hy
          exact Except.ok.inj hy
        · obtain ⟨h1, h2, _⟩ := readGrouping_ok hr
          rw [readGrouping_total h1 h2] at hr
          cases hr; exact h
    · exact blames_ok _

/-! ## The program -/

theorem optAcc_eq {k x : Key} (h : optAcc E k = some x) : x = k := by
  unfold optAcc at h
  split at h
  · cases h
  · cases h; rfl

/-- What the errors of the program say. -/
def Told (E : Env) (L : Ledger) (accts : List Key) (i : Instr) (e : AssetError) : Prop :=
  Reason E L accts i e ∨ (e = .extensionNotFound ∧ Overlooked E L accts i)

theorem Blames.told {α : Type} {r : Except Err α} {accts : List Key} {i : Instr}
    (h : Blames (Reason E L accts i) r) : Blames (Told E L accts i) r := fun e he => .inl (h e he)

theorem blames_dispatch {i : Instr} {accts : List Key} :
    Blames (Told E L accts i) (dispatch E L i accts) := by
  unfold dispatch
  split
  · exact blames_close.told
  · exact (blames_burn fun _ h => optAcc_eq h).told
  · exact blames_create.told
  · exact blames_approve.told
  · exact blames_allocate.told
  · exact blames_lock.told
  · exact blames_revoke.told
  · exact (blames_transfer fun _ h => optAcc_eq h).told
  · exact blames_unlock.told
  · exact (blames_verified (.inr rfl)).told
  · exact blames_update.told
  · exact (blames_verified (.inl rfl)).told
  · exact blames_write.told
  · exact blames_group.told
  · exact blames_ungroup.told
  · exact blames_handover.told
  · exact blames_remove
  · exact blames_resize.told
  · exact blames_error (by simp)

theorem lockedScan_true {ks : List Key} (h : lockedScan E L ks = .ok true) :
    ∃ x ∈ ks, (L x).owner = E.program ∧ byteAt (L x).data 0 = 1 ∧ byteAt (L x).data 1 = 1 := by
  induction ks with
  | nil => cases h
  | cons k ks ih =>
    have next : lockedScan E L ks = .ok true → ∃ x ∈ k :: ks, (L x).owner = E.program ∧
        byteAt (L x).data 0 = 1 ∧ byteAt (L x).data 1 = 1 := fun h => by
      obtain ⟨x, h1, h2⟩ := ih h
      exact ⟨x, by simp [h1], h2⟩
    rw [lockedScan] at h
    split at h
    · rename_i hc
      inv at h
      by_cases hl : hState (L k).data = stateLocked
      · exact ⟨k, by simp, hc.1, hc.2.2, hl⟩
      · rw [if_neg hl] at h
        exact next h.2
    · exact next h

theorem blames_execute {i : Instr} {accts : List Key} :
    Blames (Told E L (accts.take 7) i) (execute E L accts i) := by
  unfold execute processInstr
  refine blames_bind (blames_bind clean_proxiedCheck.blames fun _ _ =>
    blames_bind clean_lockedScan.blames fun b hb => blames_bind (blames_require fun h => ?_)
    fun _ _ => blames_dispatch) fun _ _ => ?_
  · have h : b = true ∧ i.blockedByLock = true := Classical.not_not.mp h
    obtain ⟨rfl, hi⟩ := h
    exact .inl ⟨hi, lockedScan_true hb⟩
  · split
    · exact blames_pure _
    · exact blames_error (by simp)

end Verif
