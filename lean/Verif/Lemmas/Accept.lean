import Verif.Lemmas.Hooks
import Verif.Lemmas.Lookup
import Verif.Spec.Payload

/-!
# The hooks accept what the specification accepts
-/

namespace Verif

open Verif.Spec

theorem setGroupSize_eq {b : Bytes} (n : Nat) : setGroupSize b n = withMembers b n := by
  unfold setGroupSize withMembers splice
  simp [length_toLE]

theorem members_eq {b : Bytes} {g : Grouping} (h : readGrouping b = .ok g) : g.size = membersOf b := by
  rw [(readGrouping_length h).2]
  unfold membersOf slice
  simp

theorem creatorAt_cons (c : Creator) (rest : Bytes) :
    creatorAt (creatorBytes c ++ rest) 0 = c ∧
      ∀ i, creatorAt (creatorBytes c ++ rest) (i + 1) = creatorAt rest i := by
  have hl := length_creatorBytes c
  constructor
  · unfold creatorAt keyAt slice creatorBytes
    have h32 : ((List.drop (34 * 0) (c.address.1 ++ [c.verified, c.share] ++ rest)).take 32) =
        c.address.1 := by
      rw [Nat.mul_zero, List.drop_zero, List.append_assoc, List.take_left' c.address.2]
    rw [h32, ofBytes_key]
    unfold byteAt
    have g1 : (c.address.1 ++ [c.verified, c.share] ++ rest)[34 * 0 + 32]? = some c.verified := by
      rw [List.append_assoc, List.getElem?_append_right (by rw [c.address.2]; omega), c.address.2]
      rfl
    have g2 : (c.address.1 ++ [c.verified, c.share] ++ rest)[34 * 0 + 33]? = some c.share := by
      rw [List.append_assoc, List.getElem?_append_right (by rw [c.address.2]; omega), c.address.2]
      rfl
    rw [List.getD_eq_getElem?_getD, List.getD_eq_getElem?_getD, g1, g2]
    rfl
  · intro i
    have hd : ∀ j, (creatorBytes c ++ rest).drop (34 * (i + 1) + j) = rest.drop (34 * i + j) := by
      intro j
      rw [List.drop_append, List.drop_eq_nil_of_le (by rw [hl]; omega), hl, List.nil_append]
      congr 1; omega
    have hb : ∀ j, byteAt (creatorBytes c ++ rest) (34 * (i + 1) + j) = byteAt rest (34 * i + j) := by
      intro j
      unfold byteAt
      rw [List.getD_eq_getElem?_getD, List.getD_eq_getElem?_getD,
        List.getElem?_append_right (by rw [hl]; omega), hl]
      congr 2; omega
    unfold creatorAt keyAt slice
    have := hd 0
    simp only [Nat.add_zero] at this
    rw [this, hb, hb]

theorem creatorList_bytes (cs : List Creator) : creatorList (creatorsBytes cs) = cs := by
  unfold creatorList
  rw [length_creatorsBytes, Nat.mul_div_cancel_left _ (by omega)]
  induction cs with
  | nil => rfl
  | cons c cs ih =>
    have e : creatorsBytes (c :: cs) = creatorBytes c ++ creatorsBytes cs := rfl
    obtain ⟨h1, h2⟩ := creatorAt_cons c (creatorsBytes cs)
    rw [List.length_cons, List.range_succ_eq_map, List.map_cons, List.map_map, e, h1]
    congr 1
    conv => rhs; rw [← ih]
    exact List.map_congr_left fun i _ => h2 i

theorem shareTotal_eq (cs : List Creator) :
    (shareTotal cs).toNat = (cs.map fun c => c.share.toNat).sum % 256 := by
  have key : ∀ (cs : List Creator) (t : UInt8), (cs.foldl (fun t c => t + c.share) t).toNat =
      (t.toNat + (cs.map fun c => c.share.toNat).sum) % 256 := by
    intro cs
    induction cs with
    | nil => intro t; have := t.toNat_lt; simp
    | cons c cs ih =>
      intro t
      rw [List.foldl_cons, ih, UInt8.toNat_add, List.map_cons, List.sum_cons]
      omega
  unfold shareTotal
  rw [key]
  simp

theorem keepVerified_ok {old new : List Creator} :
    creatorsKeepVerified old new = .ok () ↔
      ∀ o ∈ old, o.verified ≠ 0 →
        ∃ c, creatorsGet new o.address = some c ∧ c.verified ≠ 0 := by
  have hp : ∀ b : UInt8, podTrue b = true ↔ b ≠ 0 := fun b => by unfold podTrue; simp
  induction old with
  | nil => simp [creatorsKeepVerified]
  | cons o os ih =>
    rw [creatorsKeepVerified]
    simp only [List.mem_cons, forall_eq_or_imp]
    by_cases h : podTrue o.verified = true
    · rw [if_pos h]
      cases hg : creatorsGet new o.address with
      | none =>
        simp only [reduceCtorEq, false_iff, not_and]
        intro h1
        obtain ⟨c, hc, _⟩ := h1 ((hp _).mp h)
        cases hc
      | some u =>
        simp only
        by_cases hu : podTrue u.verified = true
        · rw [if_pos hu]
          constructor
          · intro h'; exact ⟨fun _ => ⟨u, rfl, (hp _).mp hu⟩, ih.mp h'⟩
          · intro h'; exact ih.mpr h'.2
        · rw [if_neg hu]
          simp only [reduceCtorEq, false_iff, not_and]
          intro h1
          obtain ⟨c, hc, hv⟩ := h1 ((hp _).mp h)
          cases hc
          exact absurd ((hp _).mpr hv) hu
    · rw [if_neg h]
      have h0 : o.verified = 0 := by
        by_contra hne; exact h ((hp _).mpr hne)
      constructor
      · intro h'; exact ⟨fun hne => absurd h0 hne, ih.mp h'⟩
      · intro h'; exact ih.mpr h'.2

theorem sumShares_bytes (cs : List Creator) :
    sumShares (creatorsBytes cs) % 256 = (shareTotal cs).toNat := by
  unfold sumShares
  rw [creatorList_bytes, shareTotal_eq]

theorem initialVerified_eq (au : Option Key) (c : Creator) :
    initialVerified au c = flagFor au [] c.address := by
  unfold initialVerified flagFor podBool
  cases au with
  | none => simp
  | some a => simp [decide_eq_true_eq]

theorem onUpdate_flag (au : Option Key) (os : List Creator) (c : Creator) :
    (match creatorsGet os c.address with
      | some o => o.verified
      | none => initialVerified au c) = flagFor au os c.address := by
  unfold creatorsGet flagFor
  cases h : os.find? (fun x => x.address = c.address) with
  | some o => rfl
  | none => rw [initialVerified_eq]; rfl

theorem shareTotal_map (cs : List Creator) (f : Creator → UInt8) :
    shareTotal (cs.map fun c => { c with verified := f c }) = shareTotal cs := by
  unfold shareTotal; rw [List.foldl_map]

theorem creators_accepted {au : Option Key} {os cs : List Creator}
    (h1 : shareTotal cs = 100)
    (h2 : creatorsKeepVerified os
      (cs.map fun c => { c with verified := flagFor au os c.address }) = .ok ()) :
    CreatorsAccepted au os (creatorsBytes cs)
      (creatorsBytes (cs.map fun c => { c with verified := flagFor au os c.address })) := by
  refine ⟨by rw [length_creatorsBytes]; omega, length_creatorsBytes_map _ _, ?_, ?_, ?_⟩
  · rw [creatorList_bytes, creatorList_bytes]
  · rw [sumShares_bytes, shareTotal_map, h1]; rfl
  · rw [creatorList_bytes]
    intro o ho hv
    obtain ⟨c, hc, hcv⟩ := keepVerified_ok.mp h2 o ho hv
    unfold creatorsGet at hc
    exact ⟨c, List.mem_of_find?_eq_some hc, by simpa using List.find?_some hc, hcv⟩

theorem readRoyalties_ok {b : Bytes} {r : Royalties} (h : readRoyalties b = .ok r) :
    8 ≤ b.length ∧ r.basisPoints = leNat (b.take 8) := by
  unfold readRoyalties at h
  split at h
  · cases h
  · inv at h
    obtain ⟨c, _, rfl⟩ := h
    refine ⟨by omega, ?_⟩
    unfold u64At slice; simp

theorem royaltiesCheck_ok {b v : Bytes} (h : royaltiesCheck b = .ok v) :
    v = b ∧ 8 ≤ b.length ∧ leNat (b.take 8) ≤ 10000 := by
  unfold royaltiesCheck at h
  inv at h
  obtain ⟨r, hr, h⟩ := h
  obtain ⟨h1, h2⟩ := readRoyalties_ok hr
  split at h
  · cases h
  · exact ⟨(pure_ok.mp h).symm, h1, by omega⟩

theorem readManager_ok {b : Bytes} {x : Delegate} (h : readManager b = .ok x) : 33 ≤ b.length := by
  unfold readManager at h
  split at h
  · cases h
  · omega

theorem readProxy_ok {b : Bytes} {x : Proxy} (h : readProxy b = .ok x) :
    b.length = 97 ∧ x = ⟨keyAt b 0, slice b 32 32, byteAt b 64, keyAt b 65⟩ := by
  unfold readProxy at h
  split at h
  · cases h
  · rename_i hl
    cases h; exact ⟨not_not.mp hl, rfl⟩

theorem limit_eq {b : Bytes} {g : Grouping} (h : readGrouping b = .ok g) :
    g.maxSize = limitOf b := (readGrouping_ok h).2.2.2.1

/-- What `on_create` accepts. -/
theorem onCreate_accepted {t : ExtType} {b v : Bytes} {au : Option Key} (ht : t ≠ .none)
    (h : onCreate t b au = .ok v) : Accepted au t none b v := by
  cases t with
  | none => exact absurd rfl ht
  | creators =>
    obtain ⟨cs, rfl, rfl, hs⟩ := onCreate_creators h
    refine ⟨by simp, ?_⟩
    have e : (fun c : Creator => { c with verified := initialVerified au c }) =
        fun c => { c with verified := flagFor au [] c.address } := by
      funext c; rw [initialVerified_eq]
    rw [e]
    exact creators_accepted hs rfl
  | grouping =>
    have hv := onCreate_other (by decide) h
    simp only [onCreate, groupingOnCreate] at h
    inv at h
    obtain ⟨g, hg, h⟩ := h
    obtain ⟨g1, g2, g3, g4, g5⟩ := readGrouping_ok hg
    split at h
    · cases h
    · refine ⟨g1, g2, hv, ?_⟩
      rw [← members_eq hg]; omega
  | royalties => exact royaltiesCheck_ok h
  | manager =>
    have hv := onCreate_other (by decide) h
    simp only [onCreate] at h
    inv at h
    obtain ⟨x, hx, _⟩ := h
    exact ⟨hv, readManager_ok hx, by intro o ho; cases ho⟩
  | proxy =>
    have hv := onCreate_other (by decide) h
    simp only [onCreate] at h
    inv at h
    obtain ⟨x, hx, _⟩ := h
    exact ⟨hv, (readProxy_ok hx).1, by simp⟩
  | _ => exact onCreate_other (by decide) h

theorem take65 {a b : Bytes} (ha : a.length = 97) (hb : b.length = 97) (h1 : keyAt a 0 = keyAt b 0)
    (h2 : slice a 32 32 = slice b 32 32) (h3 : byteAt a 64 = byteAt b 64) :
    a.take 65 = b.take 65 := by
  have h1' : slice a 0 32 = slice b 0 32 := by
    have := congrArg Subtype.val h1
    unfold keyAt at this
    rwa [ofBytes_val (length_slice (by omega)), ofBytes_val (length_slice (by omega))] at this
  have get : ∀ {o n i : Nat}, slice a o n = slice b o n → i < n → a[o + i]? = b[o + i]? := by
    intro o n i h hi
    have := congrArg (fun l => l[i]?) h
    simp only [getElem?_slice, if_pos hi] at this
    exact this
  apply List.ext_getElem?
  intro i
  rw [List.getElem?_take, List.getElem?_take]
  split
  · by_cases hi : i < 32
    · simpa using get h1' hi
    · by_cases hi2 : i < 64
      · have := get h2 (i := i - 32) (by omega)
        rwa [show 32 + (i - 32) = i by omega] at this
      · have : i = 64 := by omega
        subst this
        unfold byteAt at h3
        rw [List.getD_eq_getElem?_getD, List.getD_eq_getElem?_getD,
          List.getElem?_eq_getElem (by omega), List.getElem?_eq_getElem (by omega)] at h3
        rw [List.getElem?_eq_getElem (by omega), List.getElem?_eq_getElem (by omega)]
        simpa using h3
  · rfl

/-- What `on_update` accepts. -/
theorem onUpdate_accepted {t : ExtType} {old b v : Bytes} {au : Option Key} (ht : t ≠ .none)
    (h : onUpdate t old b au = .ok v) : Accepted au t (some old) b v := by
  cases t with
  | none => exact absurd rfl ht
  | creators =>
    obtain ⟨os, cs, rfl, rfl, rfl, hs, hk⟩ := onUpdate_creators h
    have hm : (cs.map fun c => { c with verified := match creatorsGet os c.address with
        | some o => o.verified
        | none => initialVerified au c }) =
        cs.map fun c => { c with verified := flagFor au os c.address } :=
      List.map_congr_left fun c _ =>
        congrArg (fun f => ({ c with verified := f } : Creator)) (onUpdate_flag au os c)
    have hk' : creatorsKeepVerified os
        (cs.map fun c => { c with verified := flagFor au os c.address }) = .ok () := by
      rw [← hm]; exact hk
    have hc := creators_accepted hs hk'
    rw [← hm] at hc
    refine ⟨?_, ?_⟩
    · rintro o ⟨⟩; rw [length_creatorsBytes]; omega
    · simp only [Option.map_some, Option.getD_some, creatorList_bytes]
      exact hc
  | grouping =>
    obtain ⟨o, n, ho, hn, rfl, hm⟩ := onUpdate_grouping h
    obtain ⟨g1, g2, g3, g4, g5⟩ := readGrouping_ok hn
    refine ⟨g1, g2, (readGrouping_ok ho).1, ?_, ?_⟩
    · rw [setGroupSize_eq, members_eq ho]
    · rwa [limit_eq hn, members_eq ho] at hm
  | royalties =>
    simp only [onUpdate] at h
    inv at h
    obtain ⟨_, _, h⟩ := h
    exact royaltiesCheck_ok h
  | manager =>
    have hv := onUpdate_other (by decide) (by decide) h
    simp only [onUpdate] at h
    inv at h
    obtain ⟨y, hy, x, hx, _⟩ := h
    exact ⟨hv, readManager_ok hx, by intro o ho; cases ho; exact readManager_ok hy⟩
  | proxy =>
    have hv := onUpdate_other (by decide) (by decide) h
    simp only [onUpdate, proxyOnUpdate] at h
    inv at h
    obtain ⟨o, ho, n, hn, h⟩ := h
    obtain ⟨o1, rfl⟩ := readProxy_ok ho
    obtain ⟨n1, rfl⟩ := readProxy_ok hn
    split at h
    · cases h
    · rename_i hc
      simp only [not_or, not_not] at hc
      refine ⟨hv, n1, ?_⟩
      rintro o ⟨⟩
      exact ⟨o1, (take65 o1 n1 hc.1 hc.2.1 hc.2.2).symm⟩
  | _ => exact onUpdate_other (by decide) (by decide) h

theorem updateValidate_accepted {t : ExtType} {b v : Bytes} {cur : Option Bytes} {au : Key}
    (ht : t ≠ .none) (h : updateValidate t b cur au = .ok v) :
    Accepted (some au) t cur b v ∧ ((t = .manager ∨ t = .proxy) → cur ≠ none) := by
  unfold updateValidate at h
  cases cur with
  | some old => exact ⟨onUpdate_accepted ht (mapLife_ok.mp h), by simp⟩
  | none =>
    cases t <;> first
      | cases h; done
      | exact ⟨onCreate_accepted ht (mapLife_ok.mp h), by simp⟩

end Verif
