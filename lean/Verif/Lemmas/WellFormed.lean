import Verif.Spec.WellFormed
import Verif.Lemmas.CreateStores
import Verif.Lemmas.ExtList
import Verif.Lemmas.Life
import Verif.Lemmas.Accept
import Verif.Lemmas.Reads

/-!
# Instructions used as intended keep the ledger well-formed
-/

namespace Verif

open Verif.Spec

variable {E : Env} {L L' : Ledger} {k : Key} {payer sys : Option Key} {accts : List Key} {d : Bytes}
  {es : List Extn}

theorem Spec.Buffer.disc (h : Buffer d) : hDisc d = 0 := by
  rcases h with h | ⟨es, ⟨h, _⟩, _⟩ | ⟨es, t, n, p, ⟨h, _⟩, _⟩
  · exact h 0
  · exact h.2 0 (by omega)
  · exact h.2 0 (by omega)

theorem Spec.Buffer.not_init (h : Buffer d) : ¬ Initialized d := by
  rintro ⟨_, hd⟩
  rw [h.disc] at hd
  exact absurd hd (by decide)

theorem complete_zero (hl : 168 ≤ d.length) (h : ∀ i, byteAt d i = 0) : Complete d [] :=
  ⟨⟨hl, fun i _ => h i⟩, 168, Packed.nil hl, fun i _ => h i⟩

theorem buffer_nil : Buffer [] := Or.inl fun i => byteAt_of_length_le (by simp)

/-- A buffer with room for a header stores something. -/
theorem Spec.Buffer.cases (h : Buffer d) (hl : 168 ≤ d.length) :
    (∃ es, Complete d es ∧ Distinct es) ∨
      ∃ es t n p, Pending d es t n p ∧ Distinct (es ++ [(t, p)]) := by
  rcases h with h | h | h
  · exact Or.inl ⟨[], complete_zero hl h, List.nodup_nil⟩
  · exact Or.inl h
  · exact Or.inr h

theorem distinct_append {t : ExtType} {p : Bytes} (h : Distinct es) (ht : t ∉ es.map (·.1)) :
    Distinct (es ++ [(t, p)]) := by
  unfold Distinct
  rw [List.map_append, List.nodup_append]
  refine ⟨h, by simp, ?_⟩
  intro a ha b hb
  simp only [List.map_cons, List.map_nil, List.mem_singleton] at hb
  subst hb
  rintro rfl
  exact ht ha

theorem distinct_data {t : ExtType} {p q : Bytes} (h : Distinct (es ++ [(t, p)])) :
    Distinct (es ++ [(t, q)]) := by
  unfold Distinct at *
  simpa using h

theorem Allocated.buffer {x : ExtInput} (h : Allocated d es x) (hd : Distinct es) : Buffer d := by
  obtain ⟨h1, _, h2, h3⟩ := h
  by_cases hn : (given x).length = x.length.toNat
  · exact Or.inr (Or.inl ⟨_, h2 hn, distinct_append hd h1⟩)
  · exact Or.inr (Or.inr ⟨_, _, _, _, h3 hn, distinct_append hd h1⟩)

theorem buffer_allocate {x : ExtInput} (h : processAllocate E L k payer sys x = .ok L')
    (hb : Buffer (L k).data) (hmax : (L k).data.length ≤ 10485760) (hf : Fits x)
    (ht : x.ty ≠ .none) : Buffer (L' k).data := by
  rcases (processAllocate_eff h).2.2.2 with ⟨hd, _⟩ | ⟨_, hl, _⟩
  · exact (allocate_empty h hd hf ht).buffer List.nodup_nil
  · rcases hb.cases hl with ⟨es, hc, hn⟩ | ⟨es, t, n, p, hc, hn⟩
    · exact (allocate_complete h hc (by omega) hf ht).buffer hn
    · exact (allocate_pending h hc (by omega) hf ht).2.buffer hn

/-- A finished extension without padding can be seen as one that has just been written. -/
theorem Spec.Complete.pending {t : ExtType} {p : Bytes} (h : Complete d (es ++ [(t, p)]))
    (hl : ∀ m, Packed d 168 es m → d.length ≤ m + 16 + p.length) :
    Pending d es t p.length p := by
  obtain ⟨hb, e, hp, hz⟩ := h
  obtain ⟨m, p1, p2⟩ := packed_append.mp hp
  have hlen := hl m p1
  cases p2 with
  | cons ht h0 h1 h2 hpp hr =>
    have hle := hr.walk.le
    have hru := le_roundUp8 (m + 16 + p.length)
    exact ⟨hb, ht, m, p1, h0, h1, h2, by omega, hpp, Nat.le_refl _⟩

theorem buffer_write {pk sk : Key} {x : WriteInput} (h : processWrite E L k pk sk x = .ok L')
    (hb : Buffer (L k).data)
    (hp : ∀ es t n p, Pending (L k).data es t n p → (afterWrite x p).length ≤ n) :
    Buffer (L' k).data := by
  have key : ∀ es t n p, Pending (L k).data es t n p → Distinct (es ++ [(t, p)]) →
      Buffer (L' k).data := by
    intro es t n p hc hn
    rcases write_pending h hc (hp es t n p hc) with ⟨_, h1⟩ | ⟨_, q, _, h1⟩
    · exact Or.inr (Or.inr ⟨_, _, _, _, h1, distinct_data hn⟩)
    · split at h1
      · exact Or.inr (Or.inr ⟨_, _, _, _, h1, distinct_data hn⟩)
      · exact Or.inr (Or.inl ⟨_, h1, distinct_data hn⟩)
  obtain ⟨_, _, _, _, hl, _⟩ := processWrite_eff h
  rcases hb.cases hl with ⟨es, hc, hn⟩ | ⟨es, t, n, p, hc, hn⟩
  · unfold processWrite at h
    inv at h
    obtain ⟨_, _, _, _, _, _, r, hr, h⟩ := h
    obtain ⟨_, e, hpk, hz⟩ := id hc
    rcases lastExtension_walk hpk.walk (Or.inr (leNat_slice_zero hz)) with
      ⟨g1, _⟩ | ⟨pre, t, p, m, rfl, g1, g2, g3⟩
    · rw [g1] at hr
      cases hr
      cases h
    · rw [g3] at hr
      cases hr
      inv at h
      have hle := h.1
      refine key pre t _ p (hc.pending fun m' hm' => ?_) hn
      rw [Stores.replace.walk_end_unique hm'.walk g1]
      exact hle
  · exact key es t n p hc hn

/-- Replacing the data of an extension in place. -/
theorem packed_splice {pre post : List Extn} {t : ExtType} {pl q : Bytes} {m e : Nat}
    (h1 : Packed d 168 pre m) (h2 : Packed d m ((t, pl) :: post) e) (hq : q.length = pl.length) :
    m + 16 + q.length ≤ e ∧ e ≤ d.length ∧
      Packed (splice d (m + 16) q) 168 (pre ++ (t, q) :: post) e := by
  have hle1 := h1.walk.le
  cases h2 with
  | cons ht k0 k1 k2 kp kr =>
    have hle2 := kr.walk.le
    have hru := le_roundUp8 (m + 16 + pl.length)
    have hfit : m + 16 + q.length ≤ d.length := by omega
    have hout : ∀ i, i < m + 16 ∨ m + 16 + q.length ≤ i → (splice d (m + 16) q)[i]? = d[i]? :=
      fun i hi => getElem?_splice_outside hfit hi
    have hsl : ∀ j n, j + n ≤ 16 → slice (splice d (m + 16) q) (m + j) n = slice d (m + j) n :=
      fun j n hj => slice_congr fun i hi => hout _ (by omega)
    refine ⟨by omega, by omega, packed_append.mpr ⟨m, h1.congr (by rw [length_splice hfit]; omega)
      (fun i _ hi => hout i (by omega)), Packed.cons ht ?_ ?_ ?_ ?_ ?_⟩⟩
    · have := hsl 0 4 (by omega)
      simp only [Nat.add_zero] at this
      rw [this]; exact k0
    · rw [hsl 4 4 (by omega), k1, hq]
    · rw [hsl 8 4 (by omega), k2, hq]
    · exact slice_splice_same hfit rfl
    · rw [hq]
      exact kr.congr (by rw [length_splice hfit]; omega) (fun i hi _ => hout i (by omega))

theorem byteAt_splice_outside {o i : Nat} {q : Bytes} (h : o + q.length ≤ d.length)
    (hi : i < o ∨ o + q.length ≤ i) : byteAt (splice d o q) i = byteAt d i := by
  have := getElem?_splice_outside h hi
  unfold byteAt
  rw [List.getD_eq_getElem?_getD, List.getD_eq_getElem?_getD, this]

theorem slice_splice_outside {o o' n : Nat} {q : Bytes} (h : o + q.length ≤ d.length)
    (hi : o' + n ≤ o ∨ o + q.length ≤ o') : slice (splice d o q) o' n = slice d o' n :=
  slice_congr fun i hi' => getElem?_splice_outside h (by omega)

theorem Spec.Blank.splice {o : Nat} {q : Bytes} (h : Blank d) (h1 : 168 ≤ o)
    (h2 : o + q.length ≤ d.length) : Blank (splice d o q) :=
  ⟨by rw [length_splice h2]; exact h.1, fun i hi => by
    rw [byteAt_splice_outside h2 (by omega)]; exact h.2 i hi⟩

/-- Changing the data of an extension of a buffer in place gives a buffer. -/
theorem Spec.Buffer.splice {t : ExtType} {off : Nat} {p q : Bytes} (h : Buffer d) (ht : t ≠ .none)
    (hg : assetGetMut t d = .ok (some (off, p))) (hq : q.length = p.length) :
    Buffer (splice d off q) := by
  have e16 : extLen = 16 := rfl
  unfold assetGetMut at hg
  inv at hg
  obtain ⟨r, hf, hg⟩ := hg
  cases r with
  | none => cases hg
  | some c =>
    inv at hg
    obtain ⟨p', hp, hg⟩ := hg
    simp only [Option.some.injEq, Prod.mk.injEq] at hg
    obtain ⟨rfl, rfl⟩ := hg
    have hlen : 168 ≤ d.length := by
      unfold find at hf
      rw [findFrom] at hf
      split at hf
      · have : assetLen = 168 := rfl
        omega
      · cases hf
    rcases h.cases hlen with ⟨es, hc, hn⟩ | ⟨es, s, n, pp, hc, hn⟩
    · obtain ⟨hb, e, hpk, hz⟩ := hc
      rcases find_walk hpk.walk (Or.inr (leNat_slice_zero hz)) ht with ⟨_, _, g2⟩ |
        ⟨pre, pl, post, m, rfl, g2, g3, g4, g5, g6⟩
      · rw [g2] at hf; cases hf
      · rw [g6] at hf
        cases hf
        rw [payloadAt_walk g5] at hp
        cases hp
        obtain ⟨m', p1, p2⟩ := packed_append.mp hpk
        obtain rfl := Stores.replace.walk_end_unique p1.walk g4
        obtain ⟨l1, l2, l3⟩ := packed_splice p1 p2 hq
        have hl := g4.le
        refine Or.inr (Or.inl ⟨pre ++ (t, q) :: post, ⟨hb.splice (by omega) (by omega), e, l3,
          fun i hi => ?_⟩, ?_⟩)
        · rw [byteAt_splice_outside (by omega) (by omega)]
          exact hz i hi
        · unfold Distinct at *
          simpa using hn
    · obtain ⟨hb, hs, m, h1, h2, h3, h4, h5, h6, h7⟩ := hc
      have hlen := h1.walk.length_le
      have hml := h1.walk.le
      have hru := le_roundUp8 (m + 16 + n)
      have hh : hdrAt d m = ⟨s.toU32, n, roundUp8 (m + 16 + n)⟩ := by
        unfold hdrAt u32At; rw [h2, h3, h4]
      unfold find at hf
      rcases h1.split t with ⟨g1, g2⟩ | ⟨pre, pl, post, m', rfl, g2, g3, g4, g5⟩
      · obtain ⟨f, hff⟩ : ∃ f, d.length + 1 = es.length + (f + 2) :=
          ⟨d.length - 1 - es.length, by omega⟩
        rw [hff, show assetLen = 168 from rfl, findFrom_skip h1.walk g2, findFrom,
          if_pos (by omega)] at hf
        simp only at hf
        rw [hh] at hf
        simp only at hf
        rw [ofU32_toU32] at hf
        split at hf
        · rename_i hst
          obtain hcm : m = c := by cases hf; rfl
          subst hcm
          unfold payloadAt at hp
          simp only at hp
          rw [hh] at hp
          simp only at hp
          split at hp
          · cases hp
            rename_i hfit
            rw [length_slice hfit] at hq
            have hfit2 : m + extLen + q.length ≤ d.length := by omega
            refine Or.inr (Or.inr ⟨es, s, n, q, ⟨hb.splice (by omega) hfit2, hs, m, ?_, ?_, ?_, ?_,
              ?_, ?_, by omega⟩, distinct_data hn⟩)
            · exact h1.congr (by rw [length_splice hfit2]; omega)
                fun i _ hi => getElem?_splice_outside hfit2 (by omega)
            · rw [slice_splice_outside hfit2 (by omega)]
              exact h2
            · rw [slice_splice_outside hfit2 (by omega)]
              exact h3
            · rw [slice_splice_outside hfit2 (by omega)]
              exact h4
            · rw [length_splice hfit2]; omega
            · exact slice_splice_same hfit2 rfl
          · cases hp
        · split at hf
          · cases hf
          · rw [findFrom, if_neg (by omega)] at hf
            cases hf
      · have hl' := g4.walk.length_le
        have hle4 := g4.walk.le
        obtain ⟨f, hff⟩ : ∃ f, d.length + 1 = pre.length + (f + 1) :=
          ⟨d.length - pre.length, by omega⟩
        obtain ⟨q1, q2, _⟩ := g5.walk.head
        rw [hff, show assetLen = 168 from rfl, findFrom_skip g4.walk g2, findFrom, if_pos q1] at hf
        simp only at hf
        rw [q2, if_pos rfl] at hf
        obtain hcm : m' = c := by cases hf; rfl
        subst hcm
        rw [payloadAt_walk g5.walk] at hp
        cases hp
        have hle5 := g5.walk.le
        obtain ⟨l1, l2, l3⟩ := packed_splice g4 g5 hq
        have hl := g4.walk.le
        have hfit2 : m' + extLen + q.length ≤ d.length := by omega
        refine Or.inr (Or.inr ⟨pre ++ (t, q) :: post, s, n, pp, ⟨hb.splice (by omega) hfit2, hs, m,
          l3, ?_, ?_, ?_, ?_, ?_, h7⟩, ?_⟩)
        · rw [slice_splice_outside hfit2 (by omega)]
          exact h2
        · rw [slice_splice_outside hfit2 (by omega)]
          exact h3
        · rw [slice_splice_outside hfit2 (by omega)]
          exact h4
        · rw [length_splice hfit2]; exact h5
        · rw [slice_splice_outside hfit2 (by omega)]
          exact h6
        · unfold Distinct at *
          simpa using hn

/-- A buffer that Create accepts has all its data. -/
theorem buffer_unborn {x : CreateInput} (h : execute E L accts (.create x) = .ok L')
    (hk : accts.head? = some k) (hb : Buffer (L k).data) (hm : (L k).data.length ≤ 10485760)
    (hx : Sane (asked x)) : ∃ es, Unborn L k es ∧ Distinct es := by
  obtain ⟨a, au, o, g, ga, p, s, rest, L2, es0, es1, rfl, _, hprev, ⟨L1, h1, h2⟩, _, _, _, _, hx0,
    _⟩ := create_result h
  obtain rfl : a = k := by cases hk; rfl
  by_cases hd : (L a).data = []
  · exact ⟨[], Or.inl ⟨hd, rfl⟩, List.nodup_nil⟩
  · rcases hprev with hp | ⟨_, hl, _⟩
    · exact absurd hp.1 hd
    · rcases hb.cases hl with ⟨es, hc, hn⟩ | ⟨es, t, n, q, hc, hn⟩
      · exact ⟨es, Or.inr (Or.inl hc), hn⟩
      · suffices hq : q.length = n by
          subst hq
          exact ⟨_, Or.inr (Or.inr ⟨es, t, q, rfl, hc⟩), hn⟩
        unfold createPrepare at h1
        simp only at h1
        rw [if_neg hd] at h1
        inv at h1
        obtain ⟨_, _, _, rfl⟩ := h1
        cases hxs : createOrder (x.extensions.getD []) with
        | nil =>
          rw [hxs, allocateAll] at h2
          cases h2
          exact (pending_hasExts hc hx0).1
        | cons y ys =>
          rw [hxs, allocateAll] at h2
          inv at h2
          obtain ⟨L3, h3, _⟩ := h2
          have hy : y ∈ asked x := (createOrder_perm _).mem_iff.mp (by
            show y ∈ createOrder (x.extensions.getD [])
            rw [hxs]; simp)
          exact (allocate_pending h3 hc (by omega) (hx y hy).1 (hx y hy).2).1

/-- Update does not change a buffer of another type than Creators and Grouping. -/
theorem updateBuffer_same {a au b : Key} (h : updateBuffer E L a au b payer sys = .ok L')
    (h1 : leNat (slice (L b).data 168 4) ≠ ExtType.creators.toU32)
    (h2 : leNat (slice (L b).data 168 4) ≠ ExtType.grouping.toU32) :
    (L' b).data = (L b).data := by
  unfold updateBuffer at h
  inv at h
  obtain ⟨hbo, hne, hbl, hbd, h⟩ := h
  cases hf : firstExtension (L b).data with
  | none => rw [hf] at h; cases h
  | some r =>
    rw [hf] at h
    obtain ⟨hd, o⟩ := r
    simp only at h
    have hty : hd.ty = leNat (slice (L b).data 168 4) := by
      unfold firstExtension at hf
      rw [if_pos hbl] at hf
      simp only at hf
      split at hf
      · cases hf
      · cases hf; rfl
      · cases hf
    cases ht : ExtType.ofU32 hd.ty with
    | none => rw [ht] at h; cases h
    | some t =>
      rw [ht] at h
      have htu := ofU32_eq_some.mp ht
      inv at h
      obtain ⟨⟨off, cur⟩, _, _, hfit, old, _, v, hv, _, h⟩ := h
      have hv' : v = slice (L b).data assetLen hd.len := by
        have hc : t ≠ .creators := by
          rintro rfl
          exact h1 (by rw [← hty, htu])
        have hg : t ≠ .grouping := by
          rintro rfl
          exact h2 (by rw [← hty, htu])
        unfold updateValidate at hv
        split at hv
        · exact onUpdate_other hc hg (mapLife_ok.mp hv)
        · split at hv
          · cases hv
          · cases hv
          · cases hv
          · exact onCreate_other hc (mapLife_ok.mp hv)
      have := ((updateFinish_eff h).1.data b hne).1
      rw [this, Ledger.setData_same, hv']
      exact splice_slice_self hfit

/-- All other instructions need an initialised asset in first place. -/
theorem head_init {i : Instr} (h : execute E L accts i = .ok L')
    (hi : ∀ x, i ≠ .create x ∧ i ≠ .close) (hi2 : ∀ x, i ≠ .allocate x) (hi3 : ∀ x, i ≠ .write x) :
    ∃ a, accts.head? = some a ∧ Initialized (L a).data := by
  cases i with
  | close => exact absurd rfl (hi ⟨[], .nonFungible, false, none⟩).2
  | create x => exact absurd rfl (hi x).1
  | allocate x => exact absurd rfl (hi2 x)
  | write x => exact absurd rfl (hi3 x)
  | burn =>
    obtain ⟨a, s, r, g, rest, rfl, hp⟩ := exec_burn h
    unfold processBurn at hp
    inv at hp
    exact ⟨_, rfl, by tauto⟩
  | approve x =>
    obtain ⟨a, o, d, rest, rfl, hp⟩ := exec_approve h
    unfold processApprove at hp
    inv at hp
    exact ⟨_, rfl, by tauto⟩
  | lock =>
    obtain ⟨a, s, rest, rfl, hp⟩ := exec_lock h
    unfold processLock at hp
    inv at hp
    exact ⟨_, rfl, by tauto⟩
  | revoke x =>
    obtain ⟨a, s, rest, rfl, hp⟩ := exec_revoke h
    unfold processRevoke at hp
    inv at hp
    exact ⟨_, rfl, by tauto⟩
  | transfer =>
    obtain ⟨a, s, r, g, rest, rfl, hp⟩ := exec_transfer h
    unfold processTransfer at hp
    inv at hp
    exact ⟨_, rfl, by tauto⟩
  | unlock =>
    obtain ⟨a, s, rest, rfl, hp⟩ := exec_unlock h
    unfold processUnlock at hp
    inv at hp
    exact ⟨_, rfl, by tauto⟩
  | unverify =>
    obtain ⟨a, s, rest, rfl, hp⟩ := exec_unverify h
    unfold processUnverify processSetVerified at hp
    inv at hp
    exact ⟨_, rfl, by tauto⟩
  | update x =>
    obtain ⟨a, au, b, g, p, s, rest, rfl, hp⟩ := exec_update h
    exact ⟨_, rfl, (processUpdate_eff hp).2.2.2.1⟩
  | verify =>
    obtain ⟨a, s, rest, rfl, hp⟩ := exec_verify h
    unfold processVerify processSetVerified at hp
    inv at hp
    exact ⟨_, rfl, by tauto⟩
  | group =>
    obtain ⟨a, g, au, rest, rfl, hp⟩ := exec_group h
    unfold processGroup at hp
    inv at hp
    exact ⟨_, rfl, by tauto⟩
  | ungroup =>
    obtain ⟨a, g, au, rest, rfl, hp⟩ := exec_ungroup h
    unfold processUngroup at hp
    inv at hp
    exact ⟨_, rfl, by tauto⟩
  | handover =>
    obtain ⟨a, au, na, rest, rfl, hp⟩ := exec_handover h
    unfold processHandover at hp
    inv at hp
    exact ⟨_, rfl, by tauto⟩
  | remove t =>
    obtain ⟨a, au, g, r, rest, rfl, hp⟩ := exec_remove h
    unfold processRemove at hp
    inv at hp
    exact ⟨_, rfl, by tauto⟩
  | resize x =>
    obtain ⟨a, au, p, y, rest, rfl, hp⟩ := exec_resize h
    unfold processResize at hp
    inv at hp
    exact ⟨_, rfl, by tauto⟩

/-- What instructions make of accounts that are not assets. -/
theorem wf_buffer {i : Instr} (h : execute E L accts i = .ok L')
    (hl : ∀ k, E.origLen k = (L k).data.length) (hi : Proper E.program L accts i)
    (hb : Buffer (L k).data) (hm : (L k).data.length ≤ 10485760) :
    ((∃ x, i = .create x ∧ accts.head? = some k) ∧ Tidy E.program L' k) ∨ Buffer (L' k).data := by
  by_cases hk : k ∈ dataKeys i accts
  swap
  · obtain ⟨a, rest, _, he⟩ := execute_effect h
    rw [(he.data k hk).1]
    exact Or.inr hb
  by_cases hinit : (∃ x, i = .create x) ∨ i = .close ∨ (∃ x, i = .allocate x) ∨ ∃ x, i = .write x
  · rcases hinit with ⟨x, rfl⟩ | rfl | ⟨x, rfl⟩ | ⟨x, rfl⟩
    · by_cases hka : accts.head? = some k
      · obtain ⟨es, hu, hd⟩ := buffer_unborn h hka hb hm hi
        obtain ⟨a, au, o, g, ga, p, s, rest, es1, rfl, _, _, h1, _, _, h2, _⟩ :=
          create_stores (es := es) h hl (by rw [hka]; rintro a ⟨⟩; exact hu)
            (by rw [hka]; rintro a ⟨⟩; exact hm) hi
        cases hka
        exact Or.inl ⟨⟨x, rfl, rfl⟩, _, h1, h2 hd⟩
      · obtain ⟨a, au, o, g, ga, p, s, rest, rfl, hp⟩ := exec_create h
        have hka : k ≠ a := by rintro rfl; exact hka rfl
        obtain ⟨_, L1, L2, d, types, h1, h2, _, _, _, _, h3⟩ := processCreate_inv hp
        obtain ⟨e1, o1, h1⟩ := createPrepare_eff h1
        obtain ⟨e2, _⟩ := allocateAll_eff h2 o1
        have hd2 : ((L2.setData a (createHeader d o au x)) k).data = (L k).data := by
          rw [Ledger.setData_other _ _ hka, (e2.data k hka).1, (e1.data k hka).1]
        rcases h3 with ⟨_, rfl⟩ | ⟨g', hg', h3⟩
        · rw [hd2]; exact Or.inr hb
        · by_cases hkg : k = g'
          · subst hkg
            unfold processGroup at h3
            inv at h3
            obtain ⟨_, _, _, _, _, hin, _⟩ := h3
            rw [hd2] at hin
            exact absurd hin hb.not_init
          · have := (processGroup_effect (K := [a, g']) (P := []) h3 (by simp) (by simp)).data k
              (by simp [hka, hkg])
            rw [this.1, hd2]
            exact Or.inr hb
    · obtain ⟨b, r, rest, rfl, hp⟩ := exec_close h
      obtain rfl := mem_one rfl hk rfl
      unfold processClose at hp
      inv at hp
      rw [close_self hp.2.2.2]
      exact Or.inr buffer_nil
    · obtain ⟨a, p, s, rest, rfl, hp⟩ := exec_allocate h
      obtain rfl := mem_one rfl hk rfl
      exact Or.inr (buffer_allocate hp hb hm hi.1 hi.2)
    · obtain ⟨a, p, s, rest, rfl, hp⟩ := exec_write h
      obtain rfl := mem_one rfl hk rfl
      exact Or.inr (buffer_write hp hb (hi k rfl))
  · have hka : accts.head? ≠ some k := by
      intro hka
      obtain ⟨a, ha, hin⟩ := head_init h (fun x => ⟨fun h => hinit (Or.inl ⟨x, h⟩),
        fun h => hinit (Or.inr (Or.inl h))⟩) (fun x h => hinit (Or.inr (Or.inr (Or.inl ⟨x, h⟩))))
        (fun x h => hinit (Or.inr (Or.inr (Or.inr ⟨x, h⟩))))
      rw [ha] at hka
      cases hka
      exact hb.not_init hin
    have hone : i.dataPositions ≠ [0] := by
      intro h0
      obtain ⟨a, rest, rfl, _⟩ := execute_effect h
      exact hka (by rw [mem_one h0 hk rfl]; rfl)
    cases i with
    | burn =>
      obtain ⟨a, s, r, g, rest, rfl, hp⟩ := exec_burn h
      have hka : k ≠ a := by rintro rfl; exact hka rfl
      rcases mem_two rfl hk rfl with h' | h'
      · exact absurd h' hka
      · simp only [List.getElem?_cons_succ, List.getElem?_cons_zero, Option.some.injEq] at h'
        subst h'
        obtain ⟨L1, hbg, hc⟩ := burn_inv hp
        rw [(close_other E hc hka).1]
        unfold burnGroup at hbg
        split at hbg
        · cases hbg; exact Or.inr hb
        · split at hbg
          · cases hbg
          · rename_i ga hga
            inv at hbg
            obtain ⟨_, _, r, hr, hbg⟩ := hbg
            cases r with
            | none => cases hbg
            | some y =>
              obtain ⟨off, p⟩ := y
              inv at hbg
              obtain ⟨gr, hgr, _, rfl⟩ := hbg
              have : ga = g := by
                unfold optAcc at hga
                split at hga
                · cases hga
                · cases hga; rfl
              subst this
              rw [Ledger.setData_same]
              exact Or.inr (hb.splice (by decide) hr (length_setGroupSize _ (readGrouping_ok hgr).1))
    | update x =>
      obtain ⟨a, au, b, g, p, s, rest, rfl, hp⟩ := exec_update h
      have hka : k ≠ a := by rintro rfl; exact hka rfl
      rcases mem_two rfl hk rfl with h' | h'
      · exact absurd h' hka
      · simp only [List.getElem?_cons_succ, List.getElem?_cons_zero, Option.some.injEq] at h'
        subst h'
        right
        by_cases hbp : b = E.program
        · obtain ⟨⟨L1, h1, _, _, e, _⟩, _⟩ := processUpdate_eff hp
          rw [(e.data b hka).1, h1 b hka (by rw [show optAcc E b = none from if_pos hbp]; simp)]
          exact hb
        · rw [show optAcc E b = some b from if_neg hbp] at hp
          unfold processUpdate at hp
          inv at hp
          obtain ⟨_, _, _, _, _, hp⟩ := hp
          cases hx : x.extension with
          | some e => rw [hx] at hp; cases hp
          | none =>
            rw [hx] at hp
            obtain ⟨q1, q2⟩ := hi.2 b rfl hbp
            have e0 : (L.setData a (updateHeader (L a).data x)) b = L b :=
              Ledger.setData_other _ _ hka
            rw [updateBuffer_same hp (by rw [e0]; exact q1) (by rw [e0]; exact q2), e0]
            exact hb
    | group =>
      obtain ⟨a, g, au, rest, rfl, hp⟩ := exec_group h
      have hka : k ≠ a := by rintro rfl; exact hka rfl
      rcases mem_two rfl hk rfl with h' | h'
      · exact absurd h' hka
      · simp only [List.getElem?_cons_succ, List.getElem?_cons_zero, Option.some.injEq] at h'
        subst h'
        unfold processGroup at hp
        inv at hp
        obtain ⟨_, _, _, _, _, hin, _⟩ := hp
        exact absurd hin hb.not_init
    | ungroup =>
      obtain ⟨a, g, au, rest, rfl, hp⟩ := exec_ungroup h
      have hka : k ≠ a := by rintro rfl; exact hka rfl
      rcases mem_two rfl hk rfl with h' | h'
      · exact absurd h' hka
      · simp only [List.getElem?_cons_succ, List.getElem?_cons_zero, Option.some.injEq] at h'
        subst h'
        unfold processUngroup at hp
        inv at hp
        obtain ⟨_, _, _, _, _, hin, _⟩ := hp
        exact absurd hin hb.not_init
    | create x => exact absurd (Or.inl ⟨x, rfl⟩) hinit
    | _ => exact absurd rfl hone

theorem distinct_move {i : Instr} {A A' : Asset} (h : Move E accts k i A A')
    (hd : Distinct A.exts) : Distinct A'.exts := by
  unfold Distinct at *
  cases h <;> first | exact hd | exact nodup_setExt hd | exact nodup_removeExt hd

theorem count_getLast {ts : List ExtType} {t : ExtType} (h : ts.Nodup) (hl : ts.getLast? = some t) :
    ts.count t = 1 := by
  have h1 := List.count_pos_iff.mpr (List.mem_of_getLast? hl)
  have h2 := List.nodup_iff_count.mp h t
  omega

/-- Distinct extensions make the conditions of `Proper` sound. -/
theorem Spec.Proper.sound {i : Instr} {A : Asset} (hi : Proper E.program L accts i)
    (hs : Stores E.program L k A) (hd : Distinct A.exts) : Sound k A accts i := by
  cases i with
  | update x => exact fun _ => hi.1
  | remove t =>
    intro hk
    obtain ⟨h1, h2⟩ := hi k A hk hs
    exact ⟨h1, h2, count_getLast hd h2⟩
  | _ => trivial

/-- What instructions make of assets. -/
theorem wf_tidy {i : Instr} (h : execute E L accts i = .ok L') (hi : Proper E.program L accts i)
    (ht : Tidy E.program L k) : Tidy E.program L' k ∨ Gone L' k := by
  obtain ⟨A, hs, hd⟩ := ht
  rcases refine hs h (hi.sound hs hd) with ⟨_, _, hg⟩ | ⟨A', hs', hm⟩
  · exact Or.inr hg
  · exact Or.inl ⟨A', hs', distinct_move hm hd⟩

/-- Accounts that an instruction takes over had no data. -/
theorem newly_owned {i : Instr} (h : execute E L accts i = .ok L') (ho : (L' k).owner = E.program)
    (hn : (L k).owner ≠ E.program) : k ∈ accts ∧ (L k).data = [] := by
  have hk : k ∈ accts := by
    obtain ⟨a, rest, rfl, he⟩ := execute_effect h
    by_cases hk : k = a
    · simp [hk]
    · exact absurd ((he.newOwner k hk).symm.trans ho) hn
  refine ⟨hk, ?_⟩
  have hall := (execute_ok h).2.2.2 k hk
  unfold changeAllowed at hall
  simp only [Bool.or_eq_true, Bool.and_eq_true, decide_eq_true_eq] at hall
  rcases hall with hall | ⟨_, (hall | hall) | hall⟩
  · rw [hall] at ho; exact absurd ho hn
  · exact absurd hall hn
  · exact hall.2
  · exact absurd (hall.2.1.symm.trans ho) hn

theorem wf_instr {i : Instr} (hw : WellFormed E.program L) (h : execute E L accts i = .ok L')
    (hl : ∀ k, E.origLen k = (L k).data.length) (hi : Proper E.program L accts i) :
    WellFormed E.program L' := by
  intro k ho
  have emax : maxDataLen = 10485760 := rfl
  have hold : (L k).data.length ≤ 10485760 ∧ (Tidy E.program L k ∨ Buffer (L k).data) := by
    by_cases hn : (L k).owner = E.program
    · exact hw k hn
    · rw [(newly_owned h ho hn).2]
      exact ⟨by simp, Or.inr buffer_nil⟩
  refine ⟨?_, ?_⟩
  · by_cases hk : k ∈ accts
    · exact execute_maxLen h hk hold.1
    · obtain ⟨a, rest, rfl, he⟩ := execute_effect h
      rw [he.other k (fun hd => hk ?_) hk]
      · exact hold.1
      · obtain ⟨p, _, hp⟩ := List.mem_filterMap.mp hd
        exact List.mem_of_getElem? hp
  · rcases hold.2 with ht | hb
    · rcases wf_tidy h hi ht with ht | hg
      · exact Or.inl ht
      · rw [hg]; exact Or.inr buffer_nil
    · exact (wf_buffer h hl hi hb hold.1).imp_left And.right

theorem wf_foreign {program : Key} (hw : WellFormed program L) (hf : Foreign program L L') :
    WellFormed program L' := by
  intro k ho
  by_cases hn : (L k).owner = program
  · obtain ⟨h1, h2⟩ := (hf k).1 hn
    obtain ⟨h3, h4⟩ := hw k hn
    rw [h2]
    refine ⟨h3, h4.imp_left ?_⟩
    rintro ⟨A, hs, hd⟩
    exact ⟨A, hs.foreign hf, hd⟩
  · obtain ⟨h1, h2⟩ := (hf k).2 hn ho
    refine ⟨h2, Or.inr (Or.inl fun i => ?_)⟩
    by_cases hi : i < (L' k).data.length
    · have := getElem?_byteAt hi
      exact h1 _ (List.mem_of_getElem? this)
    · exact byteAt_of_length_le (by omega)

theorem wf_steps {program : Key} (hw : WellFormed program L) (hs : ProperSteps program L L') :
    WellFormed program L' := by
  induction hs with
  | refl => exact hw
  | tail _ h ih =>
    cases h with
    | instr E accts i hp hl h hi =>
      subst hp
      exact wf_instr ih h hl hi
    | foreign h => exact wf_foreign ih h

theorem Spec.Genesis.wellFormed {program : Key} (h : Genesis program L) : WellFormed program L :=
  fun k hk => absurd hk (h k)

end Verif
