import Verif.Lemmas.Crash

/-!
# Updates that do not crash
-/

namespace Verif

open Verif.Spec

variable {α : Type} {E : Env} {L : Ledger} {k : Key} {A : Asset} {payer sys : Option Key}

/-! ## Checking data -/

theorem tame_mapLife {r : Except Err α} (h : Tame r) : Tame (mapLife r) := by
  unfold mapLife
  split
  · exact tame_error (by decide)
  · exact h

theorem read_pairs {b : Bytes} (h : ∃ l : List (Bytes × Bytes), (∀ x ∈ l, ShortString x.1 ∧ ShortString x.2) ∧
    b = pairsData l) : Tame (readPairList b) := by
  obtain ⟨l, h1, h2⟩ := h
  exact tame_is (readPairList_iff.mpr ⟨h1, h2⟩)

theorem read_props {b : Bytes} (h : Readable .properties b) : Tame (readPropList b) := by
  obtain ⟨l, h1, h2⟩ := h
  exact tame_is (readPropList_iff.mpr ⟨h1, h2⟩)

theorem read_creators {b : Bytes} (h : b.length % 34 = 0) : Tame (readCreators b) := by
  unfold readCreators; rw [if_neg (by omega)]; exact tame_ok _

theorem tame_royaltiesCheck {b : Bytes} (h : Readable .royalties b) : Tame (royaltiesCheck b) :=
  tame_bind (tame_has (readRoyalties_iff.mpr h)) fun _ _ => by taming

theorem tame_keepVerified (old new : List Creator) : Tame (creatorsKeepVerified old new) := by
  induction old with
  | nil => exact tame_ok _
  | cons c cs ih => unfold creatorsKeepVerified; taming

theorem tame_onCreate {t : ExtType} {b : Bytes} {au : Option Key} (h : Readable t b) :
    Tame (onCreate t b au) := by
  unfold onCreate
  split
  · exact tame_ok _
  · exact tame_bind (read_pairs h) fun _ _ => tame_pure _
  · exact tame_bind (tame_has (readBlob_iff.mpr h)) fun _ _ => tame_pure _
  · refine tame_bind (read_creators h) fun _ _ => tame_bind ?_ fun _ _ => tame_pure _
    unfold creatorsOnCreate; simp only; taming
  · exact tame_bind (read_pairs h) fun _ _ => tame_pure _
  · exact tame_bind (tame_has (readMetadata_iff.mpr h)) fun _ _ => tame_pure _
  · exact tame_bind (tame_has (readGrouping_iff.mpr h)) fun _ _ => by taming
  · exact tame_royaltiesCheck h
  · exact tame_bind (tame_has (readManager_iff.mpr h)) fun _ _ => tame_pure _
  · exact tame_bind (tame_has (readProxy_iff.mpr h)) fun _ _ => tame_pure _
  · exact tame_bind (read_props h) fun _ _ => tame_pure _
  · exact tame_bind (tame_ok _) fun _ _ => tame_pure _

theorem tame_onUpdate {t : ExtType} {o b : Bytes} {au : Option Key} (ho : Readable t o) (h : Readable t b) :
    Tame (onUpdate t o b au) := by
  unfold onUpdate
  split
  · exact tame_ok _
  · exact tame_bind (read_pairs ho) fun _ _ => tame_bind (read_pairs h) fun _ _ => tame_pure _
  · exact tame_bind (tame_has (readBlob_iff.mpr ho)) fun _ _ =>
      tame_bind (tame_has (readBlob_iff.mpr h)) fun _ _ => tame_pure _
  · refine tame_bind (read_creators ho) fun _ _ => tame_bind (read_creators h) fun _ _ =>
      tame_bind ?_ fun _ _ => tame_pure _
    unfold creatorsOnUpdate
    simp only
    split
    · exact tame_error (by simp [Crash])
    · exact tame_bind (tame_keepVerified _ _) fun _ _ => tame_pure _
  · exact tame_bind (read_pairs ho) fun _ _ => tame_bind (read_pairs h) fun _ _ => tame_pure _
  · exact tame_bind (tame_has (readMetadata_iff.mpr ho)) fun _ _ =>
      tame_bind (tame_has (readMetadata_iff.mpr h)) fun _ _ => tame_pure _
  · refine tame_bind (tame_has (readGrouping_iff.mpr ho)) fun _ _ =>
      tame_bind (tame_has (readGrouping_iff.mpr h)) fun _ _ => ?_
    simp only; taming
  · exact tame_bind (tame_has (readRoyalties_iff.mpr ho)) fun _ _ => tame_royaltiesCheck h
  · exact tame_bind (tame_has (readManager_iff.mpr ho)) fun _ _ =>
      tame_bind (tame_has (readManager_iff.mpr h)) fun _ _ => tame_pure _
  · exact tame_bind (tame_has (readProxy_iff.mpr ho)) fun _ _ =>
      tame_bind (tame_has (readProxy_iff.mpr h)) fun _ _ => by taming
  · exact tame_bind (read_props ho) fun _ _ => tame_bind (read_props h) fun _ _ => tame_pure _
  · exact tame_bind (tame_ok _) fun _ _ => tame_bind (tame_ok _) fun _ _ => tame_pure _

theorem tame_updateValidate {t : ExtType} {b : Bytes} {cur : Option Bytes} {au : Key} (h : Readable t b)
    (hc : ∀ o, cur = some o → Readable t o) : Tame (updateValidate t b cur au) := by
  unfold updateValidate
  split
  · exact tame_mapLife (tame_onUpdate (hc _ rfl) h)
  · split
    · exact tame_error (by decide)
    · exact tame_error (by decide)
    · exact tame_error (by decide)
    · exact tame_mapLife (tame_onCreate h)

/-! ## Writing -/

theorem tame_updateMove {es : List Extn} {e b n u : Nat} {delta : Int} {len : Nat}
    (h : Walk (L k).data 168 es e) (he : Ends (L k).data e) (hb : b ≤ e) (hd : (u : Int) = b + delta) :
    Tame (updateMove E L k payer sys (some (len, b)) n u delta) := by
  have hle := h.le
  unfold updateMove
  simp only
  split
  · exact tame_ok _
  · rcases lastExtension_walk h he with ⟨h1, h2⟩ | ⟨pre, t, p, m, _, _, _, h3⟩
    · rw [h1]; exact tame_error (by decide)
    · rw [h3]
      simp only [bind, Except.bind]
      have hsz : ((e : Int) + delta).toNat = u + (e - b) := by omega
      rw [hsz]
      have tr : ∀ {c : Bool} {L : Ledger}, Tame (resizeIf E c L (u + (e - b)) k payer sys) := by
        intro c L; unfold resizeIf; taming
      have h1 : Tame (resizeIf E (decide (0 < delta)) L (u + (e - b)) k payer sys) := tr
      refine tame_bind h1 fun L1 g1 => tame_bind ?_ fun _ _ => tr
      unfold resizeIf at g1
      have hl : u + (e - b) ≤ (L1 k).data.length ∧ b + (e - b) ≤ (L1 k).data.length := by
        split at g1
        · rename_i hpos
          have := of_decide_eq_true hpos
          rw [(resize_eff g1).2.1, length_reallocBytes]; omega
        · rename_i hpos
          have : ¬ 0 < delta := fun h => hpos (decide_eq_true h)
          cases g1; omega
      exact tame_has (memmove_live hl.2 hl.1)

theorem tame_updateFinish {t : ExtType} {off : Nat} {cur : Option (Nat × Nat)} {pl : Bytes}
    {es : List Extn} {e : Nat} (hp : Packed (L k).data 168 es e) (hz : leNat (slice (L k).data e 4) = 0)
    (ht : t ≠ .none) (hf : updateFind t (L k).data ((L k).data.length + 1) assetLen = .ok (off, cur))
    (hmax : (L k).data.length ≤ 10485760) (hpl : pl.length < 1073741824)
    (htight : (L k).data.length = e) :
    Tame (updateFinish E L k payer sys t off cur pl) := by
  have hle := hp.walk.le
  have e16 : extLen = 16 := rfl
  have hru := le_roundUp8 (off + 16 + pl.length)
  have hrub : roundUp8 (off + 16 + pl.length) < off + 16 + pl.length + 8 := by
    unfold roundUp8; omega
  unfold updateFinish
  simp only [show extLen = 16 from rfl, align8_eq]
  rcases updateFind_packed hp (Or.inr hz) ht hf with ⟨rfl, rfl, _, hno⟩ |
      ⟨pre, p, post, rfl, hpre, _, h4, h5, rfl⟩
  · simp only at *
    refine tame_bind tame_resize fun L1 h1 => ?_
    have hl1 : (L1 k).data.length = roundUp8 (off + 16 + pl.length) := by
      rw [(resize_eff h1).2.1, length_reallocBytes]
    refine tame_bind (tame_has (writeHdr_live (by omega))) fun d1 h2 => ?_
    have hl : d1.length = roundUp8 (off + 16 + pl.length) := by rw [writeHdr_length h2, hl1]
    have hne : fixFuel d1 ≠ 0 := by unfold fixFuel; omega
    generalize fixFuel d1 = m at hne ⊢
    cases m with
    | zero => exact absurd rfl hne
    | succ m =>
      rw [fixBoundaries, if_neg (by omega)]
      refine tame_bind (tame_ok _) fun d2 h3 => ?_
      cases h3
      exact tame_bind (tame_has (copyData_live (by omega))) fun _ _ => tame_pure _
  · simp only at *
    cases h5 with
    | @cons _ _ _ _ _ htn h50 h51 h52 h5p h5r =>
    have hoff := h4.walk.le
    have hle5 := h5r.walk.le
    have hlen5 := h5r.walk.length_le
    have hrp := le_roundUp8 (off + 16 + p.length)
    have hwrap := wrapI32_small (x := (roundUp8 (off + 16 + pl.length) : Int) - roundUp8 (off + 16 + p.length))
      (by omega) (by omega)
    rw [hwrap]
    generalize hb' : roundUp8 (off + 16 + p.length) = b at *
    generalize hu' : roundUp8 (off + 16 + pl.length) = u at *
    have h8b : b % 8 = 0 := by rw [← hb']; unfold roundUp8; omega
    have h8u : u % 8 = 0 := by rw [← hu']; unfold roundUp8; omega
    refine tame_bind (tame_updateMove hp.walk (Or.inr hz) (by omega) (by omega)) fun L1 h1 => ?_
    obtain ⟨g1, g2, g3, g4⟩ := updateMove_data hp.walk (Or.inr hz) (by simp) (by omega) (by omega)
      (fun h => by
        have : b = u := by rw [← hb', ← hu', h]
        omega) h1
    have hl1 : (L1 k).data.length = u + (e - b) := by
      by_cases h0 : (u : Int) - b = 0
      · rw [g3 h0, htight]; omega
      · exact g4 h0
    refine tame_bind (tame_has (writeHdr_live (by omega))) fun d1 h2 => ?_
    have w := writeHdr_ok h2
    have hl2 : d1.length = u + (e - b) := by rw [w.2.1, hl1]
    refine tame_bind (tame_has (fixBoundaries_live h5r (fun j hj => ?_) hl2 (by omega) (by omega) (by omega)
      (by unfold fixFuel; omega))) fun d2 h3 => ?_
    · rw [w.2.2.2.2.2 _ (by omega)]
      exact g2 j hj
    · have hl3 := fixBoundaries_length h3
      exact tame_bind (tame_has (copyData_live (by omega))) fun _ _ => tame_pure _

theorem tame_updateArgs {au : Key} {x : ExtInput} (hs : Stores E.program L k A) (ht : x.ty ≠ .none)
    (hn : ∀ p, x.data = some p → Readable x.ty p ∧ ∀ o, lookup x.ty A.exts = some o → Readable x.ty o)
    (hm : x.length.toNat < 1073741824) (htight : Tight L k A) :
    Tame (updateArgs E L k au payer sys x) := by
  obtain ⟨_, hmax, _, e, h6, h7⟩ := id hs
  have hend := h6.end_eq
  have hl : (L k).data.length = e := by rw [hend]; exact htight
  unfold updateArgs
  simp only
  refine tame_bind (tame_has (updateFind_live h6 (Or.inr h7) ht fun _ => .inl hl)) fun r hf => ?_
  obtain ⟨off, cur⟩ := r
  refine tame_bind ?_ fun p hp => tame_bind (tame_require (by decide)) fun _ _ =>
    tame_bind (tame_require (by decide)) fun _ h2 => ?_
  · unfold argsPayload
    split
    · rename_i data hd
      obtain ⟨r1, r2⟩ := hn data hd
      have hc := currentPayload_live h6 (Or.inr h7) ht hf
      refine tame_bind (tame_is hc) fun o ho => tame_updateValidate r1 fun q hq => ?_
      rw [hc] at ho
      cases ho
      exact r2 q hq
    · exact tame_ok _
  · have := require_ok.mp h2
    exact tame_updateFinish h6 h7 ht hf hmax (by omega) hl

theorem tame_processUpdate {au : Key} {x : UpdateInput} (ha : Proven E.program L k)
    (hn : ∀ A e, Stores E.program L k A → x.extension = some e → Tight L k A ∧ e.ty ≠ .none ∧
      e.length.toNat < 1073741824 ∧
      ∀ p, e.data = some p → Readable e.ty p ∧ ∀ o, lookup e.ty A.exts = some o → Readable e.ty o) :
    Tame (processUpdate E L k au none payer sys x) := by
  unfold processUpdate
  refine tame_bind (tame_require (by decide)) fun _ _ => tame_bind (tame_require (by decide)) fun _ ho => ?_
  simp only
  refine tame_bind (tame_require (by decide)) fun _ hI => ?_
  obtain ⟨A, hs, hi⟩ := proven_asset ha (require_ok.mp ho) (require_ok.mp hI)
  refine tame_bind (tame_require (by decide)) fun _ _ => tame_bind (tame_require (by decide)) fun _ _ => ?_
  cases he : x.extension with
  | none => exact tame_pure _
  | some e =>
    obtain ⟨h1, h2, h3, h4⟩ := hn A e hs he
    have hl : (updateHeader (L k).data x).length = (L k).data.length :=
      length_updateHeader x hs.1.2.1
    refine tame_updateArgs (stores_updateHeader hs x) h2 h4 h3 ?_
    unfold Tight at h1 ⊢
    rw [Ledger.setData_same]
    simp only
    rw [hl]
    exact h1

end Verif
