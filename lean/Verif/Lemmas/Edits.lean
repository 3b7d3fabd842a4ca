import Verif.Spec.Edits
import Verif.Lemmas.Accepts

/-!
# Edits that are not refused
-/

namespace Verif

open Verif.Spec

section
variable {E : Env} {L L' : Ledger} {k : Key} {A : Asset} {payer sys : Option Key} {size : Nat}

theorem changed_credit {x : Key} {a a' : Account} (hw : E.writable x = true) (hd : a'.data = a.data)
    (ho : a'.owner = a.owner) (hl : a.data.length ≤ 10485760) (hm : a.lamports ≤ a'.lamports) :
    changeAllowed E x a a' = true := by
  unfold changeAllowed
  simp [hw, hd, ho, hm, show a.data.length ≤ maxDataLen from hl]

theorem changed_debit {x : Key} {a a' : Account} (hw : E.writable x = true)
    (hs : E.signer x = true) (ho : a.owner = Key.system) (hd : a.data = []) (hd' : a'.data = []) :
    changeAllowed E x a a' = true := by
  unfold changeAllowed
  simp [hw, hs, ho, hd, hd']

theorem setLamports_setLamports_other {p q x : Key} {m n : Nat} (hp : x ≠ p) (hq : x ≠ q) :
    ((L.setLamports p m).setLamports q n) x = L x := by
  rw [Ledger.setLamports_other _ _ hq, Ledger.setLamports_other _ _ hp]

/-- Lamports move as needed. -/
theorem resizeLamports_live (hw : E.writable k = true) (hr : Room E L k size payer sys) :
    ∃ L1, resizeLamports E L size k payer sys = .ok L1 ∧ (L1 k).data = (L k).data ∧
      ∀ x, x ≠ k → changeAllowed E x (L x) (L1 x) = true := by
  have e64 : two64 = 18446744073709551616 := rfl
  unfold Room at hr
  unfold resizeLamports
  split at hr
  · rename_i hlt
    rw [if_pos hlt]
    obtain ⟨p, rfl, hpk, hpw, hpd, hpl⟩ := hr
    unfold resizeRefund
    simp only
    refine ⟨_, rfl, ?_, fun x hx => ?_⟩
    · rw [Ledger.setLamports_same]; exact (setLamports_data _ _ _).1
    · rw [Ledger.setLamports_other _ _ hx]
      by_cases hxp : x = p
      · subst hxp
        rw [Ledger.setLamports_same]
        refine changed_credit hpw rfl rfl hpd ?_
        simp only
        rw [Nat.mod_eq_of_lt (by omega)]
        omega
      · rw [Ledger.setLamports_other _ _ hxp]; exact changed_nothing x
  · rename_i hlt
    rw [if_neg hlt]
    obtain ⟨h1, h2, h3⟩ := hr
    have em : maxIncrease = 10240 := rfl
    unfold resizeFund
    by_cases hd : E.rent size ≤ (L k).lamports
    · refine ⟨L, ?_, rfl, fun x _ => changed_nothing x⟩
      inv
      refine ⟨by omega, ?_⟩
      rw [if_neg (by omega)]
      rfl
    · obtain ⟨p, rfl, rfl, hpk, hps, hpw, hpo, hpd, hpl, hr⟩ := h3.resolve_left hd
      refine ⟨(L.setLamports p ((L p).lamports - (E.rent size - (L k).lamports))).setLamports k
        ((L k).lamports + (E.rent size - (L k).lamports)), ?_, ?_, fun x hx => ?_⟩
      · inv
        refine ⟨by omega, ?_⟩
        rw [if_pos (by omega)]
        inv
        refine ⟨hps, trivial, ?_⟩
        unfold systemTransfer
        rw [if_pos ⟨hps, hpw, hw, hpo, hpd, by omega⟩]
        simp only
        rw [Ledger.setLamports_other _ _ (Ne.symm hpk), if_pos (by omega)]
      · rw [Ledger.setLamports_same]; exact (setLamports_data _ _ _).1
      · rw [Ledger.setLamports_other _ _ hx]
        by_cases hxp : x = p
        · subst hxp
          rw [Ledger.setLamports_same]
          exact changed_debit hpw hps hpo hpd hpd
        · rw [Ledger.setLamports_other _ _ hxp]; exact changed_nothing x

/-- An account with room can be resized. -/
theorem resize_live (hw : E.writable k = true) (hf : E.origLen k = (L k).data.length)
    (hr : Room E L k size payer sys) :
    ∃ L', resize E L size k payer sys = .ok L' ∧
      ∀ x, x ≠ k → changeAllowed E x (L x) (L' x) = true := by
  obtain ⟨L1, h1, h2, h3⟩ := resizeLamports_live hw hr
  have em : maxIncrease = 10240 := rfl
  have hle : size ≤ (L k).data.length + 10240 := by
    unfold Room at hr
    split at hr
    · omega
    · exact hr.1
  unfold resize realloc
  by_cases hs : size = (L1 k).data.length
  · refine ⟨L1, ?_, h3⟩
    inv
    exact ⟨L1, h1, by rw [if_pos hs]⟩
  · refine ⟨L1.setData k (reallocBytes (L1 k).data size), ?_, ?_⟩
    · inv
      refine ⟨L1, h1, ?_⟩
      rw [if_neg hs, if_neg (by omega)]
    · intro x hx
      rw [Ledger.setData_other _ _ hx]
      exact h3 x hx

theorem Spec.Room.size_le (hr : Room E L k size payer sys) (hm : (L k).data.length ≤ 10485760) :
    size ≤ 10485760 := by
  unfold Room at hr
  split at hr
  · omega
  · exact hr.2.1

theorem Spec.Room.setData {d : Bytes} (h : Room E L k size payer sys)
    (hd : d.length = (L k).data.length) : Room E (L.setData k d) k size payer sys := by
  unfold Room at h ⊢
  rw [Ledger.setData_same]
  simp only
  rw [hd]
  split at h
  · rename_i hlt
    rw [if_pos hlt]
    obtain ⟨p, h1, h2, h3, h4⟩ := h
    exact ⟨p, h1, h2, h3, by rw [Ledger.setData_other _ _ h2, Ledger.setData_same]; exact h4⟩
  · rename_i hlt
    rw [if_neg hlt]
    obtain ⟨h1, h2, h3⟩ := h
    refine ⟨h1, h2, h3.imp_right ?_⟩
    rintro ⟨p, g1, g2, g3, g4, g5, g6⟩
    exact ⟨p, g1, g2, g3, g4, g5, by rw [Ledger.setData_other _ _ g3]; exact g6⟩

/-! ## Ends -/

theorem packedEnd_append (off : Nat) (pre post : List Extn) :
    packedEnd off (pre ++ post) = packedEnd (packedEnd off pre) post := by
  induction pre generalizing off with
  | nil => rfl
  | cons x xs ih => obtain ⟨t, p⟩ := x; rw [List.cons_append, packedEnd, packedEnd, ih]

theorem le_packedEnd (off : Nat) (es : List Extn) : off ≤ packedEnd off es := by
  induction es generalizing off with
  | nil => exact Nat.le_refl _
  | cons x xs ih =>
    obtain ⟨t, p⟩ := x
    rw [packedEnd]
    have := ih (roundUp8 (off + 16 + p.length))
    have := le_roundUp8 (off + 16 + p.length)
    omega

theorem packedEnd_shift {b u : Nat} (h : b % 8 = u % 8) (es : List Extn) :
    packedEnd u es + b = packedEnd b es + u := by
  induction es generalizing b u with
  | nil => simp only [packedEnd]; omega
  | cons x xs ih =>
    obtain ⟨t, p⟩ := x
    rw [packedEnd, packedEnd]
    have := @ih (roundUp8 (b + 16 + p.length)) (roundUp8 (u + 16 + p.length))
      (by unfold roundUp8; omega)
    unfold roundUp8 at this ⊢
    omega

theorem packedEnd_mod {off : Nat} (h : off % 8 = 0) (es : List Extn) : packedEnd off es % 8 = 0 := by
  induction es generalizing off with
  | nil => exact h
  | cons x xs ih =>
    obtain ⟨t, p⟩ := x
    rw [packedEnd]
    exact ih (by unfold roundUp8; omega)

/-! ## The pieces of an update -/

theorem updateFind_live {d : Bytes} {es : List Extn} {e : Nat} {t : ExtType}
    (h : Packed d 168 es e) (he : Ends d e) (ht : t ≠ .none)
    (hc : lookup t es = none → d.length = e ∨ e + 16 ≤ d.length) :
    ∃ r, updateFind t d (d.length + 1) assetLen = .ok r := by
  have hlen := h.walk.length_le
  have hle := h.walk.le
  have e16 : extLen = 16 := rfl
  rw [show assetLen = 168 from rfl]
  rcases h.split t with ⟨h1, h2⟩ | ⟨pre, p, post, m, rfl, h2, h3, h4, h5⟩
  · have : d.length + 1 = es.length + ((d.length - es.length) + 1) := by omega
    rw [this, updateFind_skip h.walk h2, updateFind]
    rcases hc h1 with hc | hc
    · rw [if_neg (by omega)]; exact ⟨_, rfl⟩
    · rw [if_pos (by omega), if_neg (by omega)]
      rcases he.cases with hc' | ⟨hc', hc2⟩
      · omega
      · simp only
        rw [hc2, if_neg (by simpa using fun h => ht h.symm), if_pos rfl]
        exact ⟨_, rfl⟩
  · have hlen' := h4.walk.length_le
    have hle' := h5.walk.le
    have : d.length + 1 = pre.length + ((d.length - pre.length) + 1) := by omega
    rw [this, updateFind_skip h4.walk h2, updateFind]
    obtain ⟨g1, g2, g3, g4, g5, g6, g7, _⟩ := h5.walk.head
    rw [if_pos (by omega), if_neg (by omega)]
    simp only
    rw [g2, if_pos rfl]
    exact ⟨_, rfl⟩

/-- The boundary loop ends on an area that was moved and is followed by nothing. -/
theorem fixBoundaries_live {d0 d1 : Bytes} {b u e fuel : Nat} {post : List Extn} {delta : Int}
    (h : Packed d0 b post e) (hs : ∀ j, j < e - b → d1[u + j]? = d0[b + j]?)
    (hl : d1.length = u + (e - b)) (hd : (u : Int) = b + delta) (h8 : delta % 8 = 0)
    (hm : d1.length < 4294967296) (hfuel : post.length < fuel) :
    ∃ d2, fixBoundaries delta fuel d1 u = .ok d2 := by
  induction h generalizing u d1 fuel with
  | nil hle =>
    cases fuel with
    | zero => omega
    | succ n =>
      rw [fixBoundaries, if_neg (by omega)]
      exact ⟨_, rfl⟩
  | @cons b e t p rest ht h0 h1 h2 hp hr ih =>
    have hle := hr.walk.le
    have hru := le_roundUp8 (b + 16 + p.length)
    generalize hbn : roundUp8 (b + 16 + p.length) = bn at *
    cases fuel with
    | zero => omega
    | succ n =>
      have e16 : extLen = 16 := rfl
      rw [fixBoundaries, if_pos (by omega), if_neg (by omega)]
      simp only
      have hsl : ∀ j k, j + k ≤ e - b → slice d1 (u + j) k = slice d0 (b + j) k := by
        intro j k hjk
        apply slice_congr
        intro i hi
        have := hs (j + i) (by omega)
        simpa only [Nat.add_assoc] using this
      have hb8 : u32At d1 (u + 8) = bn := by
        unfold u32At; rw [hsl 8 4 (by omega)]; exact h2
      obtain ⟨u', hu'⟩ : ∃ u' : Nat, (u' : Int) = bn + delta := ⟨(bn + delta).toNat, by omega⟩
      have hsat : satAdd32 (u32At d1 (u + 8)) delta = u' := by
        rw [hb8]; unfold satAdd32; omega
      rw [hsat]
      have hlen' : (u + 8) + (toLE 4 u').length ≤ d1.length := by rw [length_toLE]; omega
      have hout : ∀ i, i < u + 8 ∨ u + 12 ≤ i →
          (splice d1 (u + 8) (toLE 4 u'))[i]? = d1[i]? := by
        intro i hi
        apply getElem?_splice_outside hlen'
        rw [length_toLE]; omega
      exact ih (u := u') (d1 := splice d1 (u + 8) (toLE 4 u')) (fuel := n)
        (fun j hj => by
          rw [hout _ (by omega)]
          have e1 : u' + j = u + (bn - b + j) := by omega
          have e2 : bn + j = b + (bn - b + j) := by omega
          rw [e1, e2]
          exact hs _ (by omega))
        (by rw [length_splice hlen']; omega) hu' (by rw [length_splice hlen']; exact hm)
        (by simp only [List.length_cons] at hfuel; omega)

theorem memmove_live {d : Bytes} {dst src n : Nat} (h1 : src + n ≤ d.length)
    (h2 : dst + n ≤ d.length) : ∃ d', memmove d dst src n = .ok d' := by
  unfold memmove
  split
  · exact ⟨_, rfl⟩
  · rw [if_neg (by omega)]; exact ⟨_, rfl⟩

theorem writeHdr_live {d : Bytes} {o ty n b : Nat} (h : o + 16 ≤ d.length) :
    ∃ d', writeHdr d o ty n b = .ok d' := by
  have e16 : extLen = 16 := rfl
  unfold writeHdr
  rw [if_neg (by omega)]
  exact ⟨_, rfl⟩

theorem copyData_live {d bs : Bytes} {o : Nat} (h : o + bs.length ≤ d.length) :
    ∃ d', copyData d o bs = .ok d' := by
  unfold copyData memcpy
  split
  · exact ⟨_, rfl⟩
  · rw [if_neg (by omega), if_neg (by omega)]; exact ⟨_, rfl⟩

/-- The data is moved and the account resized. -/
theorem updateMove_live {es : List Extn} {e b n u : Nat} {delta : Int} {len : Nat}
    (h : Walk (L k).data 168 es e) (he : Ends (L k).data e) (hes : es ≠ [])
    (hb : b ≤ e) (hd : (u : Int) = b + delta) (hw : E.writable k = true)
    (hf : E.origLen k = (L k).data.length)
    (hr : delta ≠ 0 → Room E L k (u + (e - b)) payer sys) :
    ∃ L', updateMove E L k payer sys (some (len, b)) n u delta = .ok L' ∧
      ∀ x, x ≠ k → changeAllowed E x (L x) (L' x) = true := by
  have hle := h.le
  unfold updateMove
  simp only
  split
  · exact ⟨L, rfl, fun x _ => changed_nothing x⟩
  · rcases lastExtension_walk h he with ⟨h1, h2⟩ | ⟨pre, t, p, m, _, _, _, h3⟩
    · exact absurd h2 hes
    · rw [h3]
      simp only [bind, Except.bind]
      have hsz : ((e : Int) + delta).toNat = u + (e - b) := by omega
      rw [hsz]
      unfold resizeIf
      by_cases hpos : 0 < delta
      · have hneg : ¬ delta < 0 := by omega
        simp only [decide_eq_true hpos, decide_eq_false hneg, if_true, Bool.false_eq_true, if_false]
        obtain ⟨L1, g1, g2⟩ := resize_live hw hf (hr (by omega))
        have hl1 : (L1 k).data.length = u + (e - b) := by
          rw [(resize_eff g1).2.1, length_reallocBytes]
        obtain ⟨d', hd'⟩ := memmove_live (d := (L1 k).data) (dst := u) (src := b) (n := e - b)
          (by omega) (by omega)
        rw [g1]
        simp only
        rw [hd']
        refine ⟨_, rfl, fun x hx => ?_⟩
        rw [Ledger.setData_other _ _ hx]; exact g2 x hx
      · simp only [decide_eq_false hpos, Bool.false_eq_true, if_false]
        obtain ⟨d', hd'⟩ := memmove_live (d := (L k).data) (dst := u) (src := b) (n := e - b)
          (by omega) (by omega)
        rw [hd']
        simp only
        by_cases hneg : delta < 0
        · simp only [decide_eq_true hneg, if_true]
          have hl := memmove_length hd'
          obtain ⟨L1, g1, g2⟩ := resize_live (L := L.setData k d') hw
            (by rw [Ledger.setData_same]; simp only; omega) ((hr (by omega)).setData hl)
          refine ⟨L1, g1, fun x hx => ?_⟩
          have := g2 x hx
          rwa [Ledger.setData_other _ _ hx] at this
        · simp only [decide_eq_false hneg, Bool.false_eq_true, if_false]
          refine ⟨_, rfl, fun x hx => ?_⟩
          rw [Ledger.setData_other _ _ hx]; exact changed_nothing x

theorem updateFinish_steps {t : ExtType} {off : Nat} {cur : Option (Nat × Nat)} {pl : Bytes}
    {L1 : Ledger} {d1 d2 d3 : Bytes} {u b : Nat} (hu : u = roundUp8 (off + 16 + pl.length))
    (hb : b = match cur with | some (_, b) => b | none => off)
    (h1 : updateMove E L k payer sys cur pl.length u (wrapI32 ((u : Int) - (b : Int))) = .ok L1)
    (h2 : writeHdr (L1 k).data off t.toU32 pl.length u = .ok d1)
    (h3 : fixBoundaries (wrapI32 ((u : Int) - (b : Int))) (fixFuel d1) d1 u = .ok d2)
    (h4 : copyData d2 (off + 16) pl = .ok d3) :
    updateFinish E L k payer sys t off cur pl = .ok (L1.setData k d3) := by
  rw [← align8_eq] at hu
  subst hu hb
  unfold updateFinish
  inv
  rcases cur with _ | ⟨l, b⟩
  · exact ⟨L1, h1, d1, h2, d2, h3, d3, h4, rfl⟩
  · exact ⟨L1, h1, d1, h2, d2, h3, d3, h4, rfl⟩

/-- The extension is written. -/
theorem updateFinish_live {t : ExtType} {off : Nat} {cur : Option (Nat × Nat)} {pl : Bytes}
    {es : List Extn} {e : Nat} (hp : Packed (L k).data 168 es e) (hz : leNat (slice (L k).data e 4) = 0)
    (ht : t ≠ .none)
    (hf : updateFind t (L k).data ((L k).data.length + 1) assetLen = .ok (off, cur))
    (hmax : (L k).data.length ≤ 10485760)
    (hw : E.writable k = true) (ho : E.origLen k = (L k).data.length)
    (htight : ∀ old, lookup t es = some old → ¬ OtherSize old pl.length → (L k).data.length = e)
    (hr : (∀ old, lookup t es = some old → OtherSize old pl.length) →
      Room E L k (packedEnd 168 (setExt t pl es)) payer sys) :
    ∃ L', updateFinish E L k payer sys t off cur pl = .ok L' ∧
      (L' k).data.length ≤ 10485760 ∧ ∀ x, x ≠ k → changeAllowed E x (L x) (L' x) = true := by
  have hle := hp.walk.le
  have e16 : extLen = 16 := rfl
  have hru := le_roundUp8 (off + 16 + pl.length)
  rcases updateFind_packed hp (Or.inr hz) ht hf with ⟨rfl, rfl, hl, hno⟩ |
      ⟨pre, p, post, rfl, hpre, hl, h4, h5, rfl⟩
  · have hr := hr (by rw [hl]; intro old h; cases h)
    rw [setExt_none hno, packedEnd_append, ← hp.end_eq] at hr
    simp only [packedEnd] at hr
    have hsz := hr.size_le hmax
    obtain ⟨L1, g1, g2⟩ := resize_live hw ho hr
    have hl1 : (L1 k).data.length = roundUp8 (off + 16 + pl.length) := by
      rw [(resize_eff g1).2.1, length_reallocBytes]
    obtain ⟨d1, hd1⟩ := writeHdr_live (d := (L1 k).data) (o := off) (ty := t.toU32) (n := pl.length)
      (b := roundUp8 (off + 16 + pl.length)) (by omega)
    have hl2 := writeHdr_length hd1
    have hfx : ∀ delta, fixBoundaries delta (fixFuel d1) d1 (roundUp8 (off + 16 + pl.length)) =
        .ok d1 := by
      intro delta
      have hne : fixFuel d1 ≠ 0 := by unfold fixFuel; omega
      generalize fixFuel d1 = m at hne ⊢
      cases m with
      | zero => exact absurd rfl hne
      | succ m => rw [fixBoundaries, if_neg (by omega)]
    obtain ⟨d2, hd2⟩ := copyData_live (d := d1) (bs := pl) (o := off + 16) (by omega)
    have hl3 := copyData_length hd2
    refine ⟨_, updateFinish_steps rfl rfl g1 hd1 (hfx _) hd2, ?_, fun x hx => ?_⟩
    · rw [Ledger.setData_same]; simp only; omega
    · rw [Ledger.setData_other _ _ hx]; exact g2 x hx
  · have h5' := h5
    cases h5 with
    | @cons _ _ _ _ _ htn h50 h51 h52 h5p h5r =>
    have hrup := le_roundUp8 (off + 16 + p.length)
    have hle4 := h4.walk.le
    have hle5 := h5r.walk.le
    have h8 : off % 8 = 0 := by rw [h4.end_eq]; exact packedEnd_mod (by decide) _
    have hother : OtherSize p pl.length ↔
        roundUp8 (off + 16 + pl.length) ≠ roundUp8 (off + 16 + p.length) := by
      unfold OtherSize roundUp8; omega
    have hend : e = packedEnd (roundUp8 (off + 16 + p.length)) post := h5r.end_eq
    have hnew : packedEnd 168 (setExt t pl (pre ++ (t, p) :: post)) =
        packedEnd (roundUp8 (off + 16 + pl.length)) post := by
      rw [setExt_some hpre, packedEnd_append, ← h4.end_eq, packedEnd]
    have hshift := packedEnd_shift (b := roundUp8 (off + 16 + p.length))
      (u := roundUp8 (off + 16 + pl.length)) (by unfold roundUp8; omega) post
    rw [hnew] at hr
    rw [hl] at htight hr
    have hr : OtherSize p pl.length → Room E L k
        (packedEnd (roundUp8 (off + 16 + pl.length)) post) payer sys := fun h =>
      hr (by rintro old h'; cases h'; exact h)
    have htight := htight p rfl
    rw [hother] at htight hr
    generalize hbdef : roundUp8 (off + 16 + p.length) = b at *
    generalize hudef : roundUp8 (off + 16 + pl.length) = u at *
    have h8b : b % 8 = 0 := by rw [← hbdef]; unfold roundUp8; omega
    have h8u : u % 8 = 0 := by rw [← hudef]; unfold roundUp8; omega
    have hsize : packedEnd u post = u + (e - b) := by omega
    rw [hsize] at hr
    have hub : u < 4294967296 / 2 := by
      by_cases h : u = b
      · omega
      · have := (hr h).size_le hmax
        omega
    have hdel : wrapI32 ((u : Int) - (b : Int)) = (u : Int) - b :=
      wrapI32_small (by omega) (by omega)
    obtain ⟨L1, g1, g2⟩ := updateMove_live (n := pl.length) (len := p.length) (u := u)
      (delta := (u : Int) - b) (payer := payer) (sys := sys)
      hp.walk (Or.inr hz) (by simp) (show b ≤ e by omega) (by omega) hw ho
      (fun h => hr (by omega))
    obtain ⟨m1, m2, m3, m4⟩ := updateMove_data hp.walk (Or.inr hz) (by simp) (by omega) (by omega)
      (by intro h; rw [h, hudef] at hbdef; omega) g1
    have hl1 : (L1 k).data.length = u + (e - b) := by
      by_cases h : u = b
      · rw [m3 (by omega), htight (by simp [h])]; omega
      · exact m4 (by omega)
    have hfin : u + (e - b) ≤ 10485760 := by
      by_cases h : u = b
      · omega
      · exact (hr h).size_le hmax
    obtain ⟨d1, hd1⟩ := writeHdr_live (d := (L1 k).data) (o := off) (ty := t.toU32) (n := pl.length)
      (b := u) (by omega)
    have hl2 := writeHdr_length hd1
    have w1 := writeHdr_ok hd1
    have hpl : post.length < fixFuel d1 := by
      have := h5r.walk.length_le
      unfold fixFuel
      omega
    obtain ⟨d2, hd2⟩ := fixBoundaries_live h5r (d1 := d1) (u := u) (delta := (u : Int) - b)
      (fun j hj => by rw [w1.2.2.2.2.2 _ (by omega)]; exact m2 j hj)
      (by omega) (by omega) (by omega) (by omega) hpl
    have hl3 := fixBoundaries_length hd2
    obtain ⟨d3, hd3⟩ := copyData_live (d := d2) (bs := pl) (o := off + 16) (by omega)
    have hl4 := copyData_length hd3
    rw [← hdel] at g1 hd2
    refine ⟨_, updateFinish_steps hudef.symm rfl g1 hd1 hd2 hd3, ?_, fun x hx => ?_⟩
    · rw [Ledger.setData_same]; simp only; omega
    · rw [Ledger.setData_other _ _ hx]; exact g2 x hx

theorem currentPayload_live {d : Bytes} {es : List Extn} {e off : Nat} {cur : Option (Nat × Nat)}
    {t : ExtType} (hp : Packed d 168 es e) (hz : Ends d e) (ht : t ≠ .none)
    (hf : updateFind t d (d.length + 1) assetLen = .ok (off, cur)) :
    currentPayload d off cur = .ok (lookup t es) := by
  rcases updateFind_packed hp hz ht hf with ⟨rfl, rfl, hl, _⟩ |
      ⟨pre, p, post, _, _, hl, _, h5, rfl⟩
  · rw [hl]; rfl
  · obtain ⟨_, _, _, _, g5, g6, g7, _⟩ := h5.walk.head
    have hle := h5.walk.le
    have e16 : extLen = 16 := rfl
    rw [hl]
    unfold currentPayload
    simp only
    have : off + 16 + p.length ≤ d.length := by
      cases h5 with
      | cons _ _ _ _ _ hr =>
        have := hr.walk.le
        have := le_roundUp8 (off + 16 + p.length)
        omega
    rw [if_neg (by omega), e16, g7]

/-- The extension part of an update. -/
theorem updateArgs_live {s : Key} {x : ExtInput} {p : Bytes} (hs : Stores E.program L k A)
    (ht : x.ty ≠ .none) (hp : UpdatesTo s x (lookup x.ty A.exts) p) (hw : E.writable k = true)
    (hf : Fresh E L k) (ho : Unobstructed L k A x.ty p.length)
    (hr : RoomFor E L k A x.ty p payer sys) :
    ∃ L', updateArgs E L k s payer sys x = .ok L' ∧
      Stores E.program L' k { A with exts := setExt x.ty p A.exts } ∧
      ∀ y, y ≠ k → changeAllowed E y (L y) (L' y) = true := by
  obtain ⟨_, hmax, _, e, h6, h7⟩ := id hs
  have hend := h6.end_eq
  have hle := h6.walk.le
  obtain ⟨⟨off, cur⟩, hfind⟩ := updateFind_live (t := x.ty) h6 (Or.inr h7) ht (by
    intro hn
    unfold Unobstructed Tight at ho
    rw [hn, ← hend] at ho
    simpa using ho)
  obtain ⟨L', g1, g2, g3⟩ := updateFinish_live (payer := payer) (sys := sys) (pl := p) h6 h7 ht
    hfind hmax hw hf (by
      intro old hold hsame
      unfold Unobstructed Tight at ho
      rw [hold, ← hend] at ho
      rcases ho with ho | ho
      · exact ho
      · exact absurd ho hsame) hr
  have harg : argsPayload (L k).data off cur s x = .ok p := by
    unfold argsPayload
    unfold UpdatesTo at hp
    cases hd : x.data with
    | none => rw [hd] at hp; rw [hp.1]
    | some new =>
      rw [hd] at hp
      simp only at hp ⊢
      inv
      refine ⟨_, currentPayload_live h6 (Or.inr h7) ht hfind, ?_⟩
      exact (updateValidate_iff ht).mpr ⟨hp.1, hp.2.2.2.1, hp.2.2.2.2, hp.2.2.1⟩
  have hlen : p.length = x.length.toNat := by
    unfold UpdatesTo at hp
    cases hd : x.data with
    | none => rw [hd] at hp; rw [hp.1, hp.2]; rfl
    | some new => rw [hd] at hp; exact hp.2.1
  have hrun : updateArgs E L k s payer sys x = .ok L' := by
    unfold updateArgs
    inv
    exact ⟨(off, cur), hfind, p, harg, by omega, by omega, g1⟩
  refine ⟨L', hrun, ?_, g3⟩
  obtain ⟨k1, k2⟩ := updateFinish_packed ⟨e, h6, h7⟩ ht hfind g1 hmax g2
  exact hs.exts (updateFinish_eff g1).2 g2 k2 k1

theorem Spec.Stores.isMutable {p : Key} (hs : Stores p L k A) (h : A.mutableByte ≠ 0) :
    hMutable (L k).data = true := by
  obtain ⟨_, _, h5, _⟩ := hs
  rw [h5] at h
  unfold hMutable
  have h : byteAt (L k).data 3 ≠ 0 := h
  simpa using h

/-- An Update of the header and maybe of an extension. -/
theorem processUpdate_plain {s : Key} {x : UpdateInput} (hs : Stores E.program L k A)
    (hsig : E.signer s = true) (hau : A.authority = s) (hmut : A.mutableByte ≠ 0)
    (hx : x.extension = none) :
    processUpdate E L k s none payer sys x =
      .ok (L.setData k (updateHeader (L k).data x)) := by
  unfold processUpdate
  inv
  refine ⟨hsig, hs.1.1, hs.init, by rw [hs.authority_eq]; exact hau, hs.isMutable hmut, ?_⟩
  rw [hx]
  rfl

theorem processUpdate_live {s : Key} {x : UpdateInput} {e : ExtInput} {p : Bytes}
    (hs : Stores E.program L k A) (hsig : E.signer s = true) (hau : A.authority = s)
    (hmut : A.mutableByte ≠ 0) (hx : x.extension = some e) (ht : e.ty ≠ .none)
    (hp : UpdatesTo s e (lookup e.ty A.exts) p) (hw : E.writable k = true)
    (hf : Fresh E L k) (ho : Unobstructed L k A e.ty p.length)
    (hr : RoomFor E L k A e.ty p payer sys) :
    ∃ L', processUpdate E L k s none payer sys x = .ok L' ∧
      Stores E.program L' k { A.retitled x with exts := setExt e.ty p A.exts } ∧
      ∀ y, y ≠ k → changeAllowed E y (L y) (L' y) = true := by
  have hst := stores_updateHeader hs x
  have hl : (updateHeader (L k).data x).length = (L k).data.length :=
    length_updateHeader x hs.1.2.1
  obtain ⟨L', g1, g2, g3⟩ := updateArgs_live (payer := payer) (sys := sys) hst ht hp hw
    (by unfold Fresh; rw [Ledger.setData_same]; simp only; rw [hl]; exact hf)
    (by
      unfold Unobstructed Tight at ho ⊢
      rw [Ledger.setData_same]
      simp only
      rw [hl]
      exact ho)
    (fun h => (hr h).setData hl)
  refine ⟨L', ?_, g2, fun y hy => ?_⟩
  · unfold processUpdate
    inv
    refine ⟨hsig, hs.1.1, hs.init, by rw [hs.authority_eq]; exact hau, hs.isMutable hmut, ?_⟩
    rw [hx]
    exact g1
  · have := g3 y hy
    rwa [Ledger.setData_other _ _ hy] at this

/-! ## Remove and resize -/

theorem removeFind_live {d : Bytes} {es : List Extn} {e : Nat} {t : ExtType} {q : Bytes}
    (h : Packed d 168 es e) (hq : lookup t es = some q)
    (hfo : d.length ≠ e ∨ (es.map (·.1)).getLast? ≠ some t ∨ lookup t es ≠ some []) :
    ∃ off b, removeFind t d (d.length + 1) assetLen = .ok (some (off, b)) ∧
      b = roundUp8 (off + 16 + q.length) ∧ b ≤ e ∧ 168 ≤ off := by
  have hle := h.walk.le
  have e16 : extLen = 16 := rfl
  rw [show assetLen = 168 from rfl]
  rcases h.split t with ⟨h1, h2⟩ | ⟨pre, p, post, m, rfl, h2, h3, h4, h5⟩
  · rw [h1] at hq; cases hq
  · rw [h3] at hq
    obtain rfl := Option.some.inj hq
    have hlen' := h4.walk.length_le
    have hle4 := h4.walk.le
    obtain ⟨g1, g2, g3, g4, g5, g6, g7, _⟩ := h5.walk.head
    cases h5 with
    | cons _ _ _ hb hpd hr =>
    have hle5 := hr.walk.le
    have hru := le_roundUp8 (m + 16 + p.length)
    have hlt : m + 16 < d.length := by
      by_cases hp0 : p.length = 0
      · have hp' : p = [] := List.length_eq_zero_iff.mp hp0
        rcases hfo with hfo | hfo | hfo
        · omega
        · cases post with
          | nil => simp at hfo
          | cons y ys =>
            obtain ⟨ty, py⟩ := y
            cases hr with
            | cons _ _ _ _ _ hr' =>
              have := hr'.walk.le
              have := le_roundUp8 (roundUp8 (m + 16 + p.length) + 16 + py.length)
              omega
        · rw [h3, hp'] at hfo; exact absurd rfl hfo
      · omega
    refine ⟨m, roundUp8 (m + 16 + p.length), ?_, rfl, hle5.1, hle4.1⟩
    have : d.length + 1 = pre.length + ((d.length - pre.length) + 1) := by omega
    rw [this, removeFind_skip h4.walk h2 (by omega), removeFind, if_pos (by omega)]
    simp only
    rw [g2, if_pos rfl]
    exact congrArg (fun b => Except.ok (some (m, b))) hb

theorem processRemove_live {s r : Key} {t : ExtType} {q : Bytes} (hs : Stores E.program L k A)
    (hsig : E.signer s = true) (hau : A.authority = s) (hmut : A.mutableByte ≠ 0)
    (ht : t ≠ .manager ∧ t ≠ .proxy) (hq : lookup t A.exts = some q)
    (hg : t = .grouping → 16 ≤ q.length ∧ q.length ≤ 48 ∧ membersOf q = 0)
    (hfo : Followed L k A t) (hw : E.writable k = true) (hf : Fresh E L k)
    (hr : Collects E L k r) :
    ∃ L', processRemove E L k s r t = .ok L' ∧ (L' k).data.length ≤ 10485760 ∧
      ∀ y, y ≠ k → changeAllowed E y (L y) (L' y) = true := by
  obtain ⟨_, hmax, _, e, h6, h7⟩ := id hs
  have hle := h6.walk.le
  obtain ⟨off, b, g1, g2, g3, g4⟩ := removeFind_live (t := t) h6 hq (by
    unfold Followed Tight at hfo; rw [← h6.end_eq] at hfo; exact hfo)
  have hru := le_roundUp8 (off + 16 + q.length)
  obtain ⟨d1, hd1⟩ := memmove_live (d := (L k).data) (dst := off) (src := b)
    (n := (L k).data.length - b) (by omega) (by omega)
  have hl := memmove_length hd1
  have hroom : Room E L k ((L k).data.length - (b - off)) (some r) none := by
    unfold Room
    rw [if_pos (by omega)]
    exact ⟨r, rfl, hr⟩
  obtain ⟨L', k1, k2⟩ := resize_live (L := L.setData k d1) hw
    (by rw [Ledger.setData_same]; simp only; rw [hl]; exact hf) (hroom.setData hl)
  refine ⟨L', ?_, ?_, fun y hy => ?_⟩
  · unfold processRemove
    inv
    refine ⟨hsig, hs.1.1, hs.init, by rw [hs.authority_eq]; exact hau, hs.isMutable hmut,
      some (off, b), g1, ?_⟩
    simp only
    inv
    refine ⟨?_, d1, hd1, k1⟩
    unfold removeAllowed
    by_cases hgr : t = .grouping
    · subst hgr
      obtain ⟨j1, j2, j3⟩ := hg rfl
      simp only
      inv
      refine ⟨_, hs.get (by decide), ?_⟩
      rw [hq]
      simp only
      inv
      exact ⟨_, readGrouping_total (p := q) j1 j2, j3⟩
    · cases t <;> first | rfl | exact absurd rfl ht.1 | exact absurd rfl ht.2 | exact absurd rfl hgr
  · rw [(resize_eff k1).2.1, length_reallocBytes]; omega
  · have := k2 y hy
    rwa [Ledger.setData_other _ _ hy] at this

theorem processResize_live {s p : Key} {x : Strategy} (hs : Stores E.program L k A)
    (hsig : E.signer s = true) (hau : A.authority = s) (hmut : A.mutableByte ≠ 0)
    (hw : E.writable k = true) (hf : Fresh E L k)
    (hr : Room E L k (resizedTo (L k).data.length A.exts x) (some p) sys) :
    ∃ L', processResize E L k s p sys x = .ok L' ∧ (L' k).data.length ≤ 10485760 ∧
      ∀ y, y ≠ k → changeAllowed E y (L y) (L' y) = true := by
  obtain ⟨_, hmax, _, e, h6, h7⟩ := id hs
  obtain ⟨L', k1, k2⟩ := resize_live hw hf hr
  refine ⟨L', ?_, ?_, k2⟩
  · unfold processResize
    inv
    refine ⟨hsig, hs.1.1, hs.init, by rw [hs.authority_eq]; exact hau, hs.isMutable hmut, _, ?_, k1⟩
    cases x with
    | extend n => rfl
    | trim =>
      unfold resizeTarget
      simp only
      inv
      rcases lastExtension_walk h6.walk (Or.inr h7) with ⟨g1, g2⟩ | ⟨_, t, p, m, _, _, _, g3⟩
      · exact ⟨_, g1, by rw [g2]; rfl⟩
      · refine ⟨_, g3, ?_⟩
        simp only [resizedTo]
        rw [← h6.end_eq]
        rfl
  · rw [(resize_eff k1).2.1, length_reallocBytes]
    exact hr.size_le hmax

end
end Verif
