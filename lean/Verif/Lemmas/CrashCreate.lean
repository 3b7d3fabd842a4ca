import Verif.Lemmas.CrashUpdate
import Verif.Lemmas.Finishing

/-!
# Allocating, writing and creating without crashes
-/

namespace Verif

open Verif.Spec

variable {α : Type} {E : Env} {L : Ledger} {k : Key} {payer sys : Option Key} {d : Bytes}

/-! ## Allocate -/

theorem findFrom_err {t : ExtType} {e : Err} : ∀ (f c : Nat), findFrom t d f c = .error e → e = .diverge := by
  intro f
  induction f with
  | zero => intro c h; cases h; rfl
  | succ f ih =>
    intro c h
    rw [findFrom] at h
    split at h
    · simp only at h
      split at h
      · cases h
      · split at h
        · cases h
        · exact ih _ h
    · cases h

theorem lastFrom_err {e : Err} : ∀ (f c : Nat) (l : Option (Hdr × Nat)), lastFrom d f c l = .error e → e = .diverge := by
  intro f
  induction f with
  | zero => intro c l h; cases h; rfl
  | succ f ih =>
    intro c l h
    rw [lastFrom] at h
    split at h
    · simp only at h
      split at h
      · cases h
      · cases h
      · exact ih _ _ h
    · cases h

theorem tame_lastExtension (h : Halts d 168) : Tame (lastExtension d) := by
  intro e he
  have := lastFrom_err _ _ _ he
  subst this
  exact absurd he (fin_lastExtension h)

theorem tame_contains {t : ExtType} (h : Halts d 168) : Tame (assetContains t d) := by
  refine tame_bind (fun e he => ?_) fun _ _ => tame_pure _
  have := findFrom_err _ _ he
  subst this
  exact absurd he (fin_find h)

theorem tame_createAccount {n : Nat} : Tame (createAccount E L k payer sys n) := by
  unfold createAccount systemCreate; simp only; taming
macro_rules | `(tactic| tame1) => `(tactic| with_reducible exact tame_createAccount)

theorem tame_save {x : ExtInput} {ex : Bool} {o : Nat} {p : Bytes}
    (hex : ex = false → (L k).data = []) (hp : p.length < 4294967296)
    (hle : p.length ≤ x.length.toNat) :
    Tame (saveExtensionData E L k payer sys x ex o p) := by
  have e16 : extLen = 16 := rfl
  unfold saveExtensionData
  simp only
  refine tame_bind ?_ fun L1 h1 => ?_
  · unfold allocateSpace; simp only; taming
  obtain ⟨s1, s2, _⟩ := allocateSpace_data h1 hex hp
  have hfit : o + 16 + p.length ≤ (L1 k).data.length := by
    have := le_roundUp8 (o + 16 + x.length.toNat)
    by_cases he : x.length.toNat = p.length
    · have := s1 he; omega
    · have := s2 he; omega
  refine tame_bind ?_ fun d1 h2 => tame_bind ?_ fun _ _ => tame_pure _
  · unfold writeHdr
    rw [if_neg (by omega)]; exact tame_ok _
  · obtain ⟨_, w2, _⟩ := writeHdr_ok h2
    unfold copyData memcpy
    split
    · exact tame_ok _
    · rw [if_neg (by omega), if_neg (by omega)]; exact tame_ok _

theorem tame_processAllocate {x : ExtInput} (hf : Fits x)
    (hw : IfBuffer E.program L k fun d => Halts d 168) : Tame (processAllocate E L k payer sys x) := by
  have e32 : two32 = 4294967296 := rfl
  unfold processAllocate
  refine tame_bind (tame_require (by decide)) fun _ _ => tame_bind ?_ fun r hr => ?_
  · unfold allocateOffset
    simp only
    split
    · exact tame_ok _
    · refine tame_bind (tame_require (by decide)) fun _ ho => tame_bind (tame_require (by decide)) fun _ _ =>
        tame_bind (tame_require (by decide)) fun _ hd => ?_
      have h := hw (require_ok.mp ho) (require_ok.mp hd)
      refine tame_bind (tame_contains h) fun _ _ => tame_bind (tame_require (by decide)) fun _ _ =>
        tame_bind (tame_lastExtension h) fun _ _ => by taming
  · obtain ⟨ex, o⟩ := r
    have hex : ex = false → (L k).data = [] := by
      intro he
      subst he
      unfold allocateOffset at hr
      simp only at hr
      split at hr
      · assumption
      · inv at hr
        obtain ⟨_, _, _, _, _, _, r, _, h⟩ := hr
        cases r with
        | none => cases h
        | some r => inv at h; obtain ⟨_, h⟩ := h; cases h
    simp only
    cases hx : x.data with
    | none => exact tame_save hex (by simp) (by simp)
    | some p =>
      have := hf.2 p hx
      refine tame_bind (tame_require (by decide)) fun _ h => tame_save hex this ?_
      rw [require_ok, Nat.mod_eq_of_lt (by omega)] at h
      exact h

/-! ## Create -/

theorem Spec.ReadableBuffer.halts (h : ReadableBuffer d) : Halts d 168 := by
  rcases h with h | ⟨es, h, _⟩ | ⟨es, t, n, p, h, _⟩
  · exact halts_zero h
  · exact h.clean.hasExts.halts
  · exact halts_pending h

theorem Allocated.readable {es : List Extn} {x : ExtInput} (h : Allocated d es x) (hd : AllReadable es)
    (hr : (given x).length = x.length.toNat → Readable x.ty (given x)) :
    ReadableBuffer d ∧ 168 ≤ d.length := by
  obtain ⟨_, _, h2, h3⟩ := h
  by_cases hn : (given x).length = x.length.toNat
  · refine ⟨.inr (.inl ⟨_, h2 hn, fun y hy => ?_⟩), (h2 hn).1.1⟩
    rw [List.mem_append, List.mem_singleton] at hy
    rcases hy with hy | rfl
    · exact hd y hy
    · exact hr hn
  · exact ⟨.inr (.inr ⟨_, _, _, _, h3 hn, hd, hr⟩), (h3 hn).1.1⟩

theorem readable_allocate {L' : Ledger} {x : ExtInput} (h : processAllocate E L k payer sys x = .ok L')
    (hb : ReadableBuffer (L k).data) (hmax : (L k).data.length ≤ 50000000) (hf : Fits x)
    (ht : x.ty ≠ .none) (hr : (given x).length = x.length.toNat → Readable x.ty (given x)) :
    ReadableBuffer (L' k).data ∧ 168 ≤ (L' k).data.length := by
  have h0 : AllReadable [] := fun _ h => by cases h
  rcases (processAllocate_eff h).2.2.2 with ⟨hd, _⟩ | ⟨_, hl, _⟩
  · exact (allocate_empty h hd hf ht).readable h0 hr
  · rcases hb with hz | ⟨es, hc, hn⟩ | ⟨es, t, n, p, hc, hn, hp⟩
    · refine (allocate_complete (es := []) h ⟨⟨hl, fun i _ => hz i⟩, 168, .nil hl, fun i _ => hz i⟩
        hmax hf ht).readable h0 hr
    · exact (allocate_complete h hc hmax hf ht).readable hn hr
    · obtain ⟨q1, q2⟩ := allocate_pending h hc hmax hf ht
      refine q2.readable (fun y hy => ?_) hr
      rw [List.mem_append, List.mem_singleton] at hy
      rcases hy with hy | rfl
      · exact hn y hy
      · exact hp q1

theorem tame_allocateAll {xs : List ExtInput} (hb : ReadableBuffer (L k).data) (h168 : 168 ≤ (L k).data.length)
    (hB : E.origLen k ≤ 10485760) (hl : (L k).data.length ≤ E.origLen k + maxIncrease)
    (hx : ∀ x ∈ xs, (Fits x ∧ x.ty ≠ .none) ∧ ((given x).length = x.length.toNat → Readable x.ty (given x))) :
    Tame (allocateAll E k payer sys xs L) ∧
    ∀ L', allocateAll E k payer sys xs L = .ok L' → ReadableBuffer (L' k).data ∧ 168 ≤ (L' k).data.length := by
  have e1 : maxIncrease = 10240 := rfl
  induction xs generalizing L with
  | nil => exact ⟨tame_ok _, fun L' h => by cases h; exact ⟨hb, h168⟩⟩
  | cons x xs ih =>
    obtain ⟨⟨hf, ht⟩, hr⟩ := hx x (by simp)
    have next : ∀ L1, processAllocate E L k payer sys x = .ok L1 →
        Tame (allocateAll E k payer sys xs L1) ∧
        ∀ L', allocateAll E k payer sys xs L1 = .ok L' → ReadableBuffer (L' k).data ∧ 168 ≤ (L' k).data.length := by
      intro L1 h1
      obtain ⟨r1, r2⟩ := readable_allocate h1 hb (by omega) hf ht hr
      exact ih r1 r2 (processAllocate_bound h1 hl)
        fun y hy => hx y (by simp [hy])
    refine ⟨?_, fun L' h => ?_⟩
    · unfold allocateAll
      exact tame_bind (tame_processAllocate hf fun _ _ => hb.halts) fun L1 h1 => (next L1 h1).1
    · rw [allocateAll] at h
      inv at h
      obtain ⟨L1, h1, h2⟩ := h
      exact (next L1 h1).2 L' h2

/-- One round of the validation. -/
theorem tame_validateStep {au : Key} {f o : Nat}
    (h : ∀ t, o + 16 ≤ d.length → leNat (slice d o 4) = t.toU32 → t ≠ .none →
      leNat (slice d (o + 8) 4) ≤ d.length → o + 16 ≤ leNat (slice d (o + 8) 4) →
      o + 16 + leNat (slice d (o + 4) 4) ≤ leNat (slice d (o + 8) 4) ∧
      Readable t (slice d (o + 16) (leNat (slice d (o + 4) 4))) ∧
      ∀ p, p.length = leNat (slice d (o + 4) 4) →
        Tame (createValidate au f (splice d (o + 16) p) (leNat (slice d (o + 8) 4)))) :
    Tame (createValidate au (f + 1) d o) := by
  have e16 : extLen = 16 := rfl
  unfold createValidate
  split
  · rename_i hl
    simp only
    split
    · exact tame_ok _
    · exact tame_error (by decide)
    · rename_i t hn hty
      split
      · exact tame_error (by decide)
      · split
        · exact tame_error (by decide)
        · rename_i hb1 hb2
          obtain ⟨q1, q2, q3⟩ := h t hl (toU32_ofU32 hty) (fun h => hn h)
            (Nat.le_of_not_lt hb2) (by have := Nat.le_of_not_lt hb1; rw [Nat.add_comm] at this; exact this)
          split
          · rename_i hb3
            exact absurd q1 (Nat.not_le.mpr hb3)
          · refine tame_bind (tame_mapLife (tame_onCreate q2)) fun p hp => tame_bind (q3 p ?_) fun _ _ => tame_pure _
            rw [mapLife_ok] at hp
            rw [onCreate_length hp]
            exact length_slice (Nat.le_trans q1 (Nat.le_of_not_lt hb2))
  · exact tame_ok _

theorem tame_validateEnd {au : Key} {f o : Nat} (h : Ends d o) (hf : 0 < f) : Tame (createValidate au f d o) := by
  obtain ⟨f, rfl⟩ : ∃ g, f = g + 1 := ⟨f - 1, by omega⟩
  refine tame_validateStep fun t h1 h2 h3 _ _ => ?_
  rcases h with h | h
  · omega
  · rw [h] at h2
    exact absurd h2.symm (toU32_ne_zero h3)

theorem tame_validateWalk {au : Key} {es : List Extn} {o e : Nat} (h : Packed d o es e) (hr : AllReadable es)
    (hend : ∀ d' f, d'.length = d.length → (∀ i, e ≤ i → d'[i]? = d[i]?) → d.length < f + e → 0 < f →
      Tame (createValidate au f d' e)) {d' : Bytes} (hd : d'.length = d.length)
    (hs : ∀ i, o ≤ i → d'[i]? = d[i]?) {f : Nat} (hf : d.length < f + o) (hf0 : 0 < f) :
    Tame (createValidate au f d' o) := by
  induction h generalizing d' f with
  | nil hle => exact hend d' f hd hs hf hf0
  | @cons off e t p rest ht h0 h1 h2 hp hrest ih =>
    obtain ⟨f, rfl⟩ : ∃ g, f = g + 1 := ⟨f - 1, by omega⟩
    have s : ∀ a n, off ≤ a → slice d' a n = slice d a n := fun a n ha =>
      slice_congr fun i hi => hs _ (by omega)
    have hru := le_roundUp8 (off + 16 + p.length)
    have hle := hrest.walk.le
    refine tame_validateStep fun t' _ h3 _ _ _ => ?_
    rw [s _ _ (by omega), h1, s _ _ (by omega), h2, s _ _ (by omega), hp]
    rw [s _ _ (by omega), h0] at h3
    have htt : t' = t := (toU32_inj h3).symm
    subst htt
    refine ⟨hru, hr (_, p) (by simp), fun q hq => ih (fun y hy => hr y (by simp [hy])) hend ?_ ?_ ?_ ?_⟩
    · rw [length_splice (by omega), hd]
    · intro i hi
      rw [getElem?_splice_outside (by omega) (Or.inr (by omega)), hs _ (by omega)]
    · omega
    · omega

theorem tame_createValidate {au : Key} (hl : 168 ≤ d.length) (h : ReadableBuffer d) :
    Tame (createValidate au (d.length + 1) d 168) := by
  rcases h with h | ⟨es, ⟨_, e, hp, hz⟩, hr⟩ | ⟨es, t, n, p, ⟨_, ht, m, g1, g2, g3, g4, g5, g6, g7⟩, hr, hpn⟩
  · exact tame_validateEnd (.inr (leNat_slice_zero fun i _ => h i)) (by omega)
  · refine tame_validateWalk hp hr (fun d' f h1 h2 _ hf => ?_) rfl (fun _ _ => rfl) (by omega) (by omega)
    refine tame_validateEnd (Spec.Ends.congr (d := d) (.inr (leNat_slice_zero hz)) h1 h2) hf
  · refine tame_validateWalk g1 hr (fun d' f h1 h2 hlf hf => ?_) rfl (fun _ _ => rfl) (by omega) (by omega)
    obtain ⟨f, rfl⟩ : ∃ g, f = g + 1 := ⟨f - 1, by omega⟩
    have s : ∀ a n, m ≤ a → slice d' a n = slice d a n := fun a n ha =>
      slice_congr fun i hi => h2 _ (by omega)
    have hru := le_roundUp8 (m + 16 + n)
    refine tame_validateStep fun t' _ h3 _ h4 _ => ?_
    rw [s _ _ (by omega), g4] at h4
    have hn : p.length = n := by omega
    subst hn
    rw [s _ _ (by omega), g3, s _ _ (by omega), g4, s _ _ (by omega), g6]
    rw [s _ _ (by omega), g2] at h3
    have htt : t' = t := (toU32_inj h3).symm
    subst htt
    refine ⟨hru, hpn rfl, fun q hq => tame_validateEnd (.inl ?_) (by omega)⟩
    rw [length_splice (by omega)]
    omega

theorem tame_proxyCheck {es : List Extn} {st : Standard} (h : HasExts d es)
    (hp : ∀ x ∈ es, x.1 = .proxy → x.2.length = 97) : Tame (createProxyCheck E k d st) := by
  unfold createProxyCheck
  refine tame_bind (tame_is (assetGet_walk h (by simp))) fun y hy => ?_
  rw [assetGet_walk h (by simp)] at hy
  cases hy
  cases hl : lookup .proxy es with
  | none => simp only; taming
  | some p => 
    have hm : (ExtType.proxy, p) ∈ es := by
      clear h hp
      induction es with
      | nil => cases hl
      | cons x xs ih =>
        obtain ⟨t, q⟩ := x
        rw [lookup] at hl
        split at hl
        · rename_i h; cases hl; subst h; simp
        · exact List.mem_cons_of_mem _ (ih hl)
    refine tame_bind (tame_has (readProxy_iff.mpr (hp _ hm rfl))) fun _ _ => by taming

theorem Proven.same {p : Key} {L' : Ledger} (h : Proven p L k) (ho : (L' k).owner = (L k).owner)
    (hd : (L' k).data = (L k).data) : Proven p L' k := by
  intro hp
  rcases h (ho ▸ hp) with ⟨A, hA, hi⟩ | hn
  · exact .inl ⟨A, hA.congr ho hd, hi⟩
  · rw [hd]; exact .inr hn

theorem tame_processCreate {au o : Key} {g ga : Option Key} {x : CreateInput}
    (hb : IfBuffer E.program L k fun d => ReadableBuffer d ∧ d.length ≤ 10485760)
    (hl : E.origLen k = (L k).data.length) (hx : Sane (asked x))
    (hr : ∀ y ∈ asked x, (given y).length = y.length.toNat → Readable y.ty (given y))
    (hg : ∀ y, g = some y → Proven E.program L y) :
    Tame (processCreate E L k au o g ga payer sys x) := by
  have e168 : assetLen = 168 := rfl
  have einc : maxIncrease = 10240 := rfl
  unfold processCreate
  refine tame_bind (tame_require (by decide)) fun _ _ => tame_bind ?_ fun L1 h1 => ?_
  · unfold createPrepare; simp only; taming
  obtain ⟨f1, f2, f3⟩ := createPrepare_eff h1
  have b1 : ReadableBuffer (L1 k).data ∧ (L1 k).data.length ≤ E.origLen k + maxIncrease ∧
      E.origLen k ≤ 10485760 ∧ 168 ≤ (L1 k).data.length := by
    rcases f3 with ⟨hd, _⟩ | ⟨h2, h3, h4, rfl⟩
    · unfold createPrepare at h1
      simp only at h1
      rw [if_pos hd] at h1
      have hb := createAccount_bound h1
      obtain ⟨_, q, _⟩ := createAccount_eff h1
      rw [q]
      have h0 : E.origLen k = 0 := by rw [hl, hd]; rfl
      refine ⟨.inl (byteAt_zeros _), ?_⟩
      simp only [zeros, List.length_replicate]
      omega
    · have := hb h2 h4
      exact ⟨this.1, by omega⟩
  obtain ⟨a1, a2⟩ := tame_allocateAll (E := E) (payer := payer) (sys := sys) b1.1 b1.2.2.2 b1.2.2.1 b1.2.1
    (xs := createOrder (x.extensions.getD [])) fun y hy =>
      have hy := (createOrder_perm _).mem_iff.mp hy
      ⟨hx y hy, hr y hy⟩
  refine tame_bind a1 fun L2 h2 => ?_
  obtain ⟨hrb, hge⟩ := a2 _ h2
  have hrq : require (assetLen ≤ (L2 k).data.length) Err.panic = .ok () := require_ok.mpr hge
  simp only
  refine tame_bind (tame_is hrq) fun _ _ => tame_bind (tame_createValidate hge hrb)
    fun ⟨d, ts⟩ h3 => tame_bind (tame_require (by decide)) fun _ _ => ?_
  obtain ⟨es0, es, e, _, _, g3, g4, _, g6, g7, _⟩ := createValidate_walk h3 (by omega)
  obtain ⟨_, hvl, hdrop⟩ := view_createHeader (d := d) (by omega) o au x
  have hh := Spec.HasExts.congr_drop ⟨e, g3, g4⟩ (by omega) hvl hdrop
  refine tame_bind (tame_proxyCheck hh ?_) fun _ _ => ?_
  · clear * - g6
    induction g6 with
    | nil => intro x hx; cases hx
    | cons h _ ih =>
      intro x hx ht
      rw [List.mem_cons] at hx
      rcases hx with rfl | hx
      · obtain ⟨q1, q2⟩ := h
        rw [onCreate_length q2]
        rw [← q1, ht] at q2
        unfold onCreate at q2
        simp only at q2
        inv at q2
        obtain ⟨px, q3, _⟩ := q2
        exact readProxy_iff.mp ⟨px, q3⟩
      · exact ih x hx ht
  · cases g with
    | none => exact tame_pure _
    | some g =>
      refine tame_processGroup fun hne => ?_
      obtain ⟨q1, _⟩ := allocateAll_eff h2 f2
      obtain ⟨r1, r2⟩ := q1.data g hne
      obtain ⟨r3, r4⟩ := f1.data g hne
      refine Proven.same (hg g rfl) ?_ ?_
      · rw [Ledger.setData_other _ _ hne, r2, r4]
      · rw [Ledger.setData_other _ _ hne, r1, r3]

/-! ## Write -/

theorem tame_write {pk sk : Key} {x : WriteInput}
    (hb : IfBuffer E.program L k fun d => Buffer d ∧
      ∀ es t n p, Pending d es t n p → (afterWrite x p).length ≤ n ∧
        ((afterWrite x p).length = n → Readable t (afterWrite x p))) :
    Tame (processWrite E L k pk sk x) := by
  have e16 : extLen = 16 := rfl
  unfold processWrite
  refine tame_bind (tame_require (by decide)) fun _ _ => tame_bind (tame_require (by decide)) fun _ _ =>
    tame_bind (tame_require (by decide)) fun _ _ => tame_bind (tame_require (by decide)) fun _ ho =>
    tame_bind (tame_require (by decide)) fun _ hl => tame_bind (tame_require (by decide)) fun _ hd => ?_
  rw [require_ok] at ho hl hd
  obtain ⟨hb, hp⟩ := hb ho hd
  refine tame_bind (tame_lastExtension hb.halts) fun r hr => ?_
  cases r with
  | none => exact tame_error (by decide)
  | some r =>
    obtain ⟨h, o⟩ := r
    simp only
    refine tame_bind (tame_require (by decide)) fun _ hle => ?_
    rw [require_ok] at hle
    -- the last extension is being written
    obtain ⟨es, t, n, q, hc⟩ : ∃ es t n q, Pending (L k).data es t n q := by
      rcases hb.cases hl with ⟨es, hc, hn⟩ | ⟨es, t, n, q, hc, hn⟩
      · obtain ⟨_, e, hpk, hz⟩ := id hc
        rcases lastExtension_walk hpk.walk (Or.inr (leNat_slice_zero hz)) with
          ⟨g1, _⟩ | ⟨pre, t, q, m, rfl, g1, g2, g3⟩
        · rw [g1] at hr; cases hr
        · rw [g3] at hr
          cases hr
          refine ⟨pre, t, _, q, hc.pending fun m' hm' => ?_⟩
          rw [Stores.replace.walk_end_unique hm'.walk g1]
          exact hle
      · exact ⟨es, t, n, q, hc⟩
    obtain ⟨hpn, hrd⟩ := hp es t n q hc
    obtain ⟨m', hp', hml, hlast⟩ := lastExtension_pending hc
    obtain ⟨_, htt, m, g1, g2, g3, g4, g5, g6, g7⟩ := hc
    obtain rfl : m' = m := by omega
    have hm := g1.walk.le.1
    have hru := le_roundUp8 (m' + 16 + n)
    rw [hlast] at hr
    cases hr
    refine tame_bind tame_resize fun L1 h1 => ?_
    obtain ⟨_, hd1, _⟩ := resize_eff h1
    rw [hd1]
    simp only
    generalize hsz : (if x.overwrite = true then m' + 16 + x.bytes.length
      else if (L k).data.length + x.bytes.length = m' + 16 + n then roundUp8 (m' + 16 + n)
      else (L k).data.length + x.bytes.length) = size
    have hsize : (size = m' + 16 + (afterWrite x q).length ∨
        (x.overwrite = false ∧ (afterWrite x q).length = n ∧ size = roundUp8 (m' + 16 + n))) ∧
        (if x.overwrite = true then m' + 16 else (L k).data.length) + x.bytes.length ≤ size := by
      unfold afterWrite at *
      by_cases ho : x.overwrite = true
      · rw [if_pos ho] at hsz hpn ⊢
        rw [if_pos ho]
        omega
      · have ho' : x.overwrite = false := by simpa using ho
        rw [if_neg ho] at hsz hpn ⊢
        rw [if_neg ho]
        rw [List.length_append] at *
        split at hsz
        · exact ⟨.inr ⟨ho', by omega, hsz.symm⟩, by omega⟩
        · omega
    obtain ⟨hsize, hfit⟩ := hsize
    refine tame_bind ?_ fun D h2 => ?_
    · unfold memcpy
      rw [if_neg (by rw [length_reallocBytes']; omega), if_neg (by rw [length_reallocBytes']; omega)]
      exact tame_ok _
    obtain ⟨_, hD⟩ := memcpy_ok h2
    have hDl : D.length = size := by
      rw [hD, length_splice (by rw [length_reallocBytes']; exact hfit), length_reallocBytes']
    split
    · exact tame_pure _
    · rename_i hge
      have hge' : ¬ D.length < m' + 16 + n := hge
      have hwn : (afterWrite x q).length = n := by omega
      have hlow : ∀ i, i < m' + 16 → D[i]? = (L k).data[i]? := by
        intro i hi
        rw [hD, getElem?_splice_outside (by rw [length_reallocBytes']; exact hfit)
          (by split <;> omega), getElem?_reallocBytes (by omega) (by omega)]
      have hlows : ∀ o c, o + c ≤ m' + 16 → slice D o c = slice (L k).data o c :=
        fun o c hoc => slice_congr fun i hi => hlow _ (by omega)
      have hdat : slice D (m' + 16) (afterWrite x q).length = afterWrite x q := by
        unfold afterWrite at *
        by_cases ho : x.overwrite = true
        · rw [if_pos ho, hD, if_pos ho]
          exact slice_splice_same (by rw [length_reallocBytes']; rw [if_pos ho] at hfit; exact hfit) rfl
        · simp only [if_neg ho] at *
          rw [List.length_append, slice_add]
          rw [List.length_append] at hwn
          congr 1
          · rw [← g6, length_slice (by omega)]
            refine slice_congr fun i hi => ?_
            rw [hD, getElem?_splice_outside (by rw [length_reallocBytes']; exact hfit) (by omega),
              getElem?_reallocBytes (by omega) (by omega)]
          · rw [hD, ← g5]
            exact slice_splice_same (by rw [length_reallocBytes']; exact hfit) rfl
      have hpD : Packed D 168 es m' := g1.congr (by omega) fun i _ hi => hlow i (by omega)
      have f0 : leNat (slice D m' 4) = t.toU32 := by rw [hlows _ _ (by omega)]; exact g2
      have f1 : leNat (slice D (m' + 4) 4) = n := by rw [hlows _ _ (by omega)]; exact g3
      have f2 : leNat (slice D (m' + 8) 4) = roundUp8 (m' + 16 + n) := by
        rw [hlows _ _ (by omega)]; exact g4
      refine tame_bind ?_ fun _ _ => tame_pure _
      unfold writeValidate
      refine tame_bind (tame_is (lastExtension_tail htt hpD f0 f1 f2 (by omega) (by omega))) fun r hr => ?_
      rw [lastExtension_tail htt hpD f0 f1 f2 (by omega) (by omega)] at hr
      cases hr
      simp only
      rw [ofU32_toU32]
      simp only
      rw [if_neg (by omega)]
      rw [hwn] at hdat
      rw [hdat]
      exact tame_bind (tame_mapLife (tame_onCreate (hrd hwn))) fun _ _ => tame_pure _

end Verif
