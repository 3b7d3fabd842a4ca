import Verif.Lemmas.Ending
import Verif.Lemmas.Edits
import Verif.Lemmas.Births

/-!
# Instructions that come to an end
-/

namespace Verif

open Verif.Spec

variable {E : Env} {L : Ledger} {k : Key} {payer sys : Option Key} {n : Nat}

/-! ## The runtime -/

theorem fin_assertDelegate (ds : List (Option Delegate)) (k : Key) (r : Role) :
    Finishes (assertDelegate ds k r) := by
  unfold assertDelegate
  have : ∀ (ds : List (Option Delegate)) (x : Except Err Unit), Finishes x →
      Finishes (ds.foldl (assertDelegateStep k r) x) := by
    intro ds
    induction ds with
    | nil => exact fun x h => h
    | cons y ds ih =>
      intro x h
      refine ih _ ?_
      unfold assertDelegateStep; finishing
  exact this _ _ (fin_error (by decide))
macro_rules | `(tactic| finish1) => `(tactic| with_reducible exact fin_assertDelegate _ _ _)

theorem fin_transfer {s d : Key} : Finishes (systemTransfer E L s d n) := by
  unfold systemTransfer; simp only; finishing
macro_rules | `(tactic| finish1) => `(tactic| with_reducible exact fin_transfer)

theorem fin_resize : Finishes (resize E L n k payer sys) := by
  unfold resize resizeLamports resizeRefund resizeFund realloc; simp only; finishing
macro_rules | `(tactic| finish1) => `(tactic| with_reducible exact fin_resize)

theorem fin_resizeIf {c : Bool} : Finishes (resizeIf E c L n k payer sys) := by
  unfold resizeIf; finishing
macro_rules | `(tactic| finish1) => `(tactic| with_reducible exact fin_resizeIf)

theorem fin_createAccount : Finishes (createAccount E L k payer sys n) := by
  unfold createAccount systemCreate; simp only; finishing
macro_rules | `(tactic| finish1) => `(tactic| with_reducible exact fin_createAccount)

theorem fin_closeAccount {r : Key} : Finishes (closeAccount L k r) := by
  unfold closeAccount; simp only; finishing
macro_rules | `(tactic| finish1) => `(tactic| with_reducible exact fin_closeAccount)

theorem fin_writeHdr {d : Bytes} {o a b c : Nat} : Finishes (writeHdr d o a b c) := by
  unfold writeHdr; finishing
macro_rules | `(tactic| finish1) => `(tactic| with_reducible exact fin_writeHdr)

theorem fin_memcpy {d bs : Bytes} {o : Nat} : Finishes (memcpy d o bs) := by unfold memcpy; finishing
macro_rules | `(tactic| finish1) => `(tactic| with_reducible exact fin_memcpy)

theorem fin_memmove {d : Bytes} {a b c : Nat} : Finishes (memmove d a b c) := by unfold memmove; finishing
macro_rules | `(tactic| finish1) => `(tactic| with_reducible exact fin_memmove)

theorem fin_copyData {d bs : Bytes} {o : Nat} : Finishes (copyData d o bs) := by unfold copyData; finishing
macro_rules | `(tactic| finish1) => `(tactic| with_reducible exact fin_copyData)

theorem fin_managerOf {d : Bytes} (h : Halts d 168) : Finishes (managerOf d) := by
  unfold managerOf; finishing

theorem fin_royalties {a s r : Key} {d : Bytes} (h : Halts d 168) : Finishes (processRoyalties E L a s r d) := by
  unfold processRoyalties; finishing

theorem fin_ownerOrDelegate {d : Bytes} {s : Key} {r : Role} (h : Halts d 168) :
    Finishes (ownerOrDelegate d s r) := by
  unfold ownerOrDelegate
  split
  · exact fin_ok _
  · exact fin_bind (fin_managerOf h) fun _ _ => by finishing

theorem fin_lockAuthority {d : Bytes} {s : Key} (h : Halts d 168) : Finishes (lockAuthority d s) := by
  unfold lockAuthority
  exact fin_bind (fin_managerOf h) fun _ _ => by finishing

/-! ## The simple instructions -/

/-- The headers of the accounts of the program end. -/
def AllHalt (E : Env) (L : Ledger) : Prop := ∀ k, (L k).owner = E.program → Halts (L k).data 168

section
variable (hw : AllHalt E L)
include hw

theorem fin_processTransfer {a s r : Key} {g : Option Key} : Finishes (processTransfer E L a s r g) := by
  unfold processTransfer
  refine fin_bind (fin_require (by decide)) fun _ ho => ?_
  have h := hw a (require_ok.mp ho)
  simp only
  refine fin_bind (fin_require (by decide)) fun _ _ => fin_bind (fin_require (by decide)) fun _ _ =>
    fin_bind (fin_royalties h) fun _ _ => fin_bind (fin_require (by decide)) fun _ _ =>
    fin_bind (fin_ownerOrDelegate h) fun _ _ => fin_bind (fin_require (by decide)) fun _ _ => ?_
  split
  · exact fin_pure _
  · refine fin_bind ?_ fun _ _ => fin_pure _
    unfold transferGroupCheck
    split
    · exact fin_ok _
    · split
      · exact fin_ok _
      · split
        · exact fin_error (by decide)
        · refine fin_bind (fin_require (by decide)) fun _ hg => ?_
          have hg := hw _ (require_ok.mp hg)
          simp only
          exact fin_bind (fin_require (by decide)) fun _ _ => fin_bind (fin_require (by decide)) fun _ _ =>
            fin_bind (fin_require (by decide)) fun _ _ => fin_bind (fin_require (by decide)) fun _ _ =>
            fin_bind (fin_royalties hg) fun _ _ => fin_pure _

theorem fin_processBurn {a s : Key} {r g : Option Key} (hg : ∀ x, g = some x → Halts (L x).data 168) :
    Finishes (processBurn E L a s r g) := by
  unfold processBurn
  refine fin_bind (fin_require (by decide)) fun _ ho => ?_
  have h := hw a (require_ok.mp ho)
  simp only
  refine fin_bind (fin_require (by decide)) fun _ _ => fin_bind (fin_require (by decide)) fun _ _ =>
    fin_bind (fin_ownerOrDelegate h) fun _ _ => fin_bind (fin_require (by decide)) fun _ _ =>
    fin_bind ?_ fun _ _ => by finishing
  unfold burnGroup
  split
  · exact fin_ok _
  · split
    · exact fin_error (by decide)
    · have h := hg _ rfl
      simp only; finishing

omit hw in
theorem fin_processClose {a r : Key} : Finishes (processClose E L a r) := by
  unfold processClose; simp only; finishing

omit hw in
theorem fin_processApprove {a o d : Key} {x : DelegateInput} : Finishes (processApprove E L a o d x) := by
  unfold processApprove; simp only; finishing

omit hw in
theorem fin_processRevoke {a s : Key} {x : DelegateInput} : Finishes (processRevoke E L a s x) := by
  unfold processRevoke; simp only; finishing

theorem fin_processLock {a s : Key} : Finishes (processLock E L a s) := by
  unfold processLock
  exact fin_bind (fin_require (by decide)) fun _ _ => fin_bind (fin_require (by decide)) fun _ ho =>
    fin_bind (fin_require (by decide)) fun _ _ =>
    fin_bind (fin_lockAuthority (hw a (require_ok.mp ho))) fun _ _ => fin_pure _

theorem fin_processUnlock {a s : Key} : Finishes (processUnlock E L a s) := by
  unfold processUnlock
  exact fin_bind (fin_require (by decide)) fun _ _ => fin_bind (fin_require (by decide)) fun _ ho =>
    fin_bind (fin_require (by decide)) fun _ _ =>
    fin_bind (fin_lockAuthority (hw a (require_ok.mp ho))) fun _ _ => fin_pure _

theorem fin_processGroup {a g au : Key} : Finishes (processGroup E L a g au) := by
  unfold processGroup
  refine fin_bind (fin_require (by decide)) fun _ _ => fin_bind (fin_require (by decide)) fun _ _ =>
    fin_bind (fin_require (by decide)) fun _ ho => ?_
  have h := hw g (require_ok.mp ho)
  unfold groupAuthority
  simp only; finishing

theorem fin_processUngroup {a g au : Key} : Finishes (processUngroup E L a g au) := by
  unfold processUngroup
  refine fin_bind (fin_require (by decide)) fun _ _ => fin_bind (fin_require (by decide)) fun _ _ =>
    fin_bind (fin_require (by decide)) fun _ ho => ?_
  have h := hw g (require_ok.mp ho)
  unfold groupAuthority
  simp only; finishing

omit hw in
theorem fin_processHandover {a au nu : Key} : Finishes (processHandover E L a au nu) := by
  unfold processHandover; simp only; finishing

theorem fin_setVerified {a c : Key} {b : Bool} : Finishes (processSetVerified E L a c b) := by
  unfold processSetVerified
  refine fin_bind (fin_require (by decide)) fun _ _ => fin_bind (fin_require (by decide)) fun _ ho => ?_
  have h := hw a (require_ok.mp ho)
  simp only; finishing

theorem fin_processResize {a au p : Key} {s : Strategy} : Finishes (processResize E L a au p sys s) := by
  unfold processResize resizeTarget
  refine fin_bind (fin_require (by decide)) fun _ _ => fin_bind (fin_require (by decide)) fun _ ho => ?_
  have h := hw a (require_ok.mp ho)
  simp only; finishing

theorem fin_processRemove {a au r : Key} {t : ExtType} : Finishes (processRemove E L a au r t) := by
  unfold processRemove removeAllowed
  refine fin_bind (fin_require (by decide)) fun _ _ => fin_bind (fin_require (by decide)) fun _ ho => ?_
  have h := hw a (require_ok.mp ho)
  simp only; finishing

/-! ## Allocate and Create -/

theorem fin_processAllocate {x : ExtInput} : Finishes (processAllocate E L k payer sys x) := by
  have hs : ∀ ex o data, Finishes (saveExtensionData E L k payer sys x ex o data) := by
    intro ex o data
    unfold saveExtensionData allocateSpace; simp only; finishing
  unfold processAllocate
  refine fin_bind (fin_require (by decide)) fun _ _ => fin_bind ?_ fun _ _ => ?_
  · unfold allocateOffset
    simp only
    split
    · exact fin_ok _
    · refine fin_bind (fin_require (by decide)) fun _ ho => ?_
      have h := hw k (require_ok.mp ho)
      finishing
  · cases x.data with
    | none => exact hs _ _ _
    | some p => exact fin_bind (fin_require (by decide)) fun _ _ => hs _ _ _

omit hw in
/-- The validation goes forward by at least 16 bytes each time. -/
theorem fin_createValidate {au : Key} {f : Nat} {d : Bytes} {o : Nat} (h : d.length < f + o) (hf : 0 < f) :
    Finishes (createValidate au f d o) := by
  have e16 : extLen = 16 := rfl
  induction f generalizing d o with
  | zero => omega
  | succ f ih =>
    unfold createValidate
    split
    · simp only
      split
      · exact fin_ok _
      · exact fin_error (by decide)
      · split
        · exact fin_error (by decide)
        · split
          · exact fin_error (by decide)
          · split
            · exact fin_error (by decide)
            · refine fin_bind (fin_mapLife (fin_onCreate _ _ _)) fun p hp => fin_bind (ih ?_ ?_) fun _ _ => fin_pure _
              · rw [mapLife_ok] at hp
                have := onCreate_length hp
                rw [length_slice (by omega)] at this
                rw [length_splice (by omega)]
                omega
              · omega
    · exact fin_ok _

end

/-- Appending an extension to a buffer gives a buffer, also in the middle of Create. -/
theorem buffer_allocate' {L' : Ledger} {x : ExtInput} (h : processAllocate E L k payer sys x = .ok L')
    (hb : Buffer (L k).data) (hmax : (L k).data.length ≤ 50000000) (hf : Fits x)
    (ht : x.ty ≠ .none) : Buffer (L' k).data := by
  rcases (processAllocate_eff h).2.2.2 with ⟨hd, _⟩ | ⟨_, hl, _⟩
  · exact (allocate_empty h hd hf ht).buffer List.nodup_nil
  · rcases hb.cases hl with ⟨es, hc, hn⟩ | ⟨es, t, n, p, hc, hn⟩
    · exact (allocate_complete h hc hmax hf ht).buffer hn
    · exact (allocate_pending h hc hmax hf ht).2.buffer hn

theorem AllHalt.eff {L' : Ledger} (hw : AllHalt E L) (h : Eff E k payer L L') (hk : Halts (L' k).data 168) :
    AllHalt E L' := by
  intro x hx
  by_cases hxk : x = k
  · rw [hxk]; exact hk
  · obtain ⟨h1, h2⟩ := h.data x hxk
    rw [h1]; exact hw x (h2 ▸ hx)

theorem fin_allocateAll {xs : List ExtInput} (hw : AllHalt E L) (hb : Buffer (L k).data)
    (ho : (L k).owner = E.program)
    (hB : E.origLen k ≤ 10485760) (hl : (L k).data.length ≤ E.origLen k + maxIncrease)
    (hx : ∀ x ∈ xs, Fits x ∧ x.ty ≠ .none) : Finishes (allocateAll E k payer sys xs L) := by
  have e1 : maxIncrease = 10240 := rfl
  induction xs generalizing L with
  | nil => exact fin_ok _
  | cons x xs ih =>
    unfold allocateAll
    refine fin_bind (fin_processAllocate hw) fun L1 h1 => ?_
    obtain ⟨hf, ht⟩ := hx x (by simp)
    have hb1 := buffer_allocate' h1 hb (by omega) hf ht
    obtain ⟨g1, _, g3, _⟩ := processAllocate_eff h1
    exact ih (hw.eff g1 hb1.halts) hb1 g3 (processAllocate_bound h1 hl) fun y hy => hx y (by simp [hy])

theorem fin_proxyCheck {d : Bytes} {st : Standard} (h : Halts d 168) : Finishes (createProxyCheck E k d st) := by
  unfold createProxyCheck
  refine fin_bind (fin_assetGet h) fun y _ => ?_
  cases y with
  | none => finishing
  | some p => exact fin_bind (fin_readProxy _) fun _ _ => by finishing

theorem fin_create {au o : Key} {g ga : Option Key} {x : CreateInput} (hw : AllHalt E L)
    (hb : (L k).owner = E.program → hDisc (L k).data = 0 → Buffer (L k).data)
    (hB : (L k).owner = E.program → (L k).data.length ≤ 10485760) (hl : E.origLen k = (L k).data.length)
    (hx : Sane (asked x)) :
    Finishes (processCreate E L k au o g ga payer sys x) := by
  have e168 : assetLen = 168 := rfl
  have einc : maxIncrease = 10240 := rfl
  unfold processCreate
  refine fin_bind (fin_require (by decide)) fun _ _ => fin_bind ?_ fun L1 h1 => ?_
  · unfold createPrepare; simp only; finishing
  obtain ⟨f1, f2, f3⟩ := createPrepare_eff h1
  have b1 : Buffer (L1 k).data ∧ (L1 k).data.length ≤ E.origLen k + maxIncrease ∧ E.origLen k ≤ 10485760 := by
    rcases f3 with ⟨hd, _⟩ | ⟨h2, h3, h4, rfl⟩
    · unfold createPrepare at h1
      simp only at h1
      rw [if_pos hd] at h1
      have hb := createAccount_bound h1
      obtain ⟨_, q, _⟩ := createAccount_eff h1
      rw [q]
      have h0 : E.origLen k = 0 := by rw [hl, hd]; rfl
      refine ⟨.inl (byteAt_zeros _), ?_⟩
      simp only [zeros, List.length_replicate]
      omega
    · have := hB h2
      exact ⟨hb h2 h4, by omega⟩
  have hw1 : AllHalt E L1 := hw.eff f1 b1.1.halts
  refine fin_bind (fin_allocateAll hw1 b1.1 f2 b1.2.2 b1.2.1 fun y hy =>
    hx y ((createOrder_perm _).mem_iff.mp hy)) fun L2 h2 => ?_
  refine fin_bind (fin_require (by decide)) fun _ hge => fin_bind (fin_createValidate (by omega) (by omega))
    fun ⟨d, ts⟩ h3 => fin_bind (fin_require (by decide)) fun _ _ => ?_
  rw [require_ok] at hge
  obtain ⟨es0, es, e, _, _, g3, g4, _, _, g7, _⟩ := createValidate_walk h3 (by omega)
  obtain ⟨_, hvl, hdrop⟩ := view_createHeader (d := d) (by omega) o au x
  have hh : Halts (createHeader d o au x) 168 :=
    (Spec.HasExts.congr_drop ⟨e, g3, g4⟩ (by omega) hvl hdrop).halts
  refine fin_bind ?_ fun _ _ => ?_
  · exact fin_proxyCheck hh
  · cases g with
    | none => exact fin_pure _
    | some g =>
      refine fin_processGroup (E := E) ?_
      obtain ⟨q1, q2⟩ := allocateAll_eff h2 f2
      intro y hy
      by_cases hyk : y = k
      · subst hyk; rw [Ledger.setData_same]; exact hh
      · rw [Ledger.setData_other _ _ hyk] at hy ⊢
        obtain ⟨r1, r2⟩ := q1.data y hyk
        rw [r1]; exact hw1 y (r2 ▸ hy)

/-! ## Write -/

theorem fin_write {p s : Key} {x : WriteInput} (hw : AllHalt E L)
    (hb : (L k).owner = E.program → hDisc (L k).data = 0 → Buffer (L k).data)
    (hp : ∀ es t n p, Pending (L k).data es t n p → (afterWrite x p).length ≤ n) :
    Finishes (processWrite E L k p s x) := by
  have e16 : extLen = 16 := rfl
  unfold processWrite
  refine fin_bind (fin_require (by decide)) fun _ _ => fin_bind (fin_require (by decide)) fun _ _ =>
    fin_bind (fin_require (by decide)) fun _ _ => fin_bind (fin_require (by decide)) fun _ ho =>
    fin_bind (fin_require (by decide)) fun _ hl => fin_bind (fin_require (by decide)) fun _ hd =>
    fin_bind (fin_lastExtension (hw k (require_ok.mp ho))) fun r hr => ?_
  rw [require_ok] at ho hl hd
  have hb := hb ho hd
  cases r with
  | none => exact fin_error (by decide)
  | some r =>
    obtain ⟨h, o⟩ := r
    simp only
    refine fin_bind (fin_require (by decide)) fun _ hle => fin_bind fin_resize fun L1 h1 =>
      fin_bind fin_memcpy fun D h2 => ?_
    rw [require_ok] at hle
    -- the last extension is being written
    obtain ⟨es, t, n, q, hc⟩ : ∃ es t n q, Pending (L k).data es t n q := by
      rcases hb.cases hl with ⟨es, hc, hn⟩ | ⟨es, t, n, q, hc, hn⟩
      · obtain ⟨_, e, hpk, hz⟩ := id hc
        rcases lastExtension_walk hpk.walk (Or.inr (leNat_slice_zero hz)) with
          ⟨g1, _⟩ | ⟨pre, t, q, m, rfl, g1, g2, g3⟩
        · rw [g1] at hr; cases hr
        · rw [g3] at hr
          cases hr
          refine ⟨pre, t, _, q, hc.pending fun m' hm' => ?_⟩
          rw [Stores.replace.walk_end_unique hm'.walk g1]
          exact hle
      · exact ⟨es, t, n, q, hc⟩
    have hpn := hp es t n q hc
    obtain ⟨m', hp', hml, hlast⟩ := lastExtension_pending hc
    obtain ⟨_, htt, m, g1, g2, g3, g4, g5, g6, g7⟩ := hc
    obtain rfl : m' = m := by omega
    have hm := g1.walk.le.1
    have hru := le_roundUp8 (m' + 16 + n)
    rw [hlast] at hr
    cases hr
    obtain ⟨_, hd1, _⟩ := resize_eff h1
    rw [hd1] at h2
    simp only at h2
    generalize hsz : (if x.overwrite = true then m' + 16 + x.bytes.length
      else if (L k).data.length + x.bytes.length = m' + 16 + n then roundUp8 (m' + 16 + n)
      else (L k).data.length + x.bytes.length) = size at h2
    obtain ⟨hfit, hD⟩ := memcpy_ok h2
    rw [length_reallocBytes'] at hfit
    have hDl : D.length = size := by
      rw [hD, length_splice (by rw [length_reallocBytes']; exact hfit), length_reallocBytes']
    have hge : m' + 16 ≤ size ∧ size ≤ roundUp8 (m' + 16 + n) := by
      unfold afterWrite at hpn
      by_cases ho : x.overwrite = true
      · rw [if_pos ho] at hsz hpn
        omega
      · rw [if_neg ho] at hsz hpn
        rw [List.length_append] at hpn
        split at hsz <;> omega
    have hlow : ∀ i, i < m' + 16 → D[i]? = (L k).data[i]? := by
      intro i hi
      rw [hD, getElem?_splice_outside (by rw [length_reallocBytes']; exact hfit)
        (by split <;> omega), getElem?_reallocBytes (by omega) (by omega)]
    have hD168 : Halts D 168 := by
      refine (g1.walk.congr (by omega) fun i _ hi => hlow i (by omega)).halts' (.next ?_ (.stop (.inl ?_)))
      · rintro (g | g)
        · omega
        · rw [slice_congr (d := (L k).data) (b := m') fun i hi => hlow _ (by omega), g2] at g
          exact toU32_ne_zero htt g
      · rw [slice_congr (d := (L k).data) (b := m' + 8) fun i hi => hlow _ (by omega), g4]
        omega
    unfold writeValidate
    finishing

/-! ## Update -/

/-- The boundary loop on an area that was moved, when no further header follows. -/
theorem fin_fixBoundaries {d0 d1 : Bytes} {b u e fuel : Nat} {post : List Extn} {delta : Int}
    (h : Packed d0 b post e) (hs : ∀ j, j < e - b → d1[u + j]? = d0[b + j]?)
    (hl : u + (e - b) ≤ d1.length) (hl' : d1.length < u + (e - b) + 16) (hd : (u : Int) = b + delta)
    (h8 : delta % 8 = 0) (hm : d1.length < 4294967296) (hfuel : post.length < fuel) :
    Finishes (fixBoundaries delta fuel d1 u) := by
  have e16 : extLen = 16 := rfl
  induction h generalizing u d1 fuel with
  | nil hle =>
    cases fuel with
    | zero => omega
    | succ n =>
      rw [fixBoundaries]
      split
      · rw [if_pos (by omega)]; exact fin_error (by decide)
      · exact fin_ok _
  | @cons b e t p rest ht h0 h1 h2 hp hr ih =>
    have hle := hr.walk.le
    have hru := le_roundUp8 (b + 16 + p.length)
    generalize hbn : roundUp8 (b + 16 + p.length) = bn at *
    cases fuel with
    | zero => omega
    | succ n =>
      rw [fixBoundaries, if_pos (by omega), if_neg (by omega)]
      simp only
      have hsl : ∀ j k, j + k ≤ e - b → slice d1 (u + j) k = slice d0 (b + j) k := by
        intro j k hjk
        apply slice_congr
        intro i hi
        have := hs (j + i) (by omega)
        simpa only [Nat.add_assoc] using this
      have hb8 : u32At d1 (u + 8) = bn := by
        unfold u32At; rw [hsl 8 4 (by omega)]; exact h2
      obtain ⟨u', hu'⟩ : ∃ u' : Nat, (u' : Int) = bn + delta := ⟨(bn + delta).toNat, by omega⟩
      have hsat : satAdd32 (u32At d1 (u + 8)) delta = u' := by
        rw [hb8]; unfold satAdd32; omega
      rw [hsat]
      have hlen' : (u + 8) + (toLE 4 u').length ≤ d1.length := by rw [length_toLE]; omega
      have hout : ∀ i, i < u + 8 ∨ u + 12 ≤ i →
          (splice d1 (u + 8) (toLE 4 u'))[i]? = d1[i]? := by
        intro i hi
        apply getElem?_splice_outside hlen'
        rw [length_toLE]; omega
      exact ih (u := u') (d1 := splice d1 (u + 8) (toLE 4 u')) (fuel := n)
        (fun j hj => by
          rw [hout _ (by omega)]
          have e1 : u' + j = u + (bn - b + j) := by omega
          have e2 : bn + j = b + (bn - b + j) := by omega
          rw [e1, e2]
          exact hs _ (by omega))
        (by rw [length_splice hlen']; omega) (by rw [length_splice hlen']; omega) hu'
        (by rw [length_splice hlen']; exact hm)
        (by simp only [List.length_cons] at hfuel; omega)

theorem fin_updateMove {cur : Option (Nat × Nat)} {u : Nat} {delta : Int} (h : Halts (L k).data 168) :
    Finishes (updateMove E L k payer sys cur n u delta) := by
  unfold updateMove
  cases cur with
  | none => exact fin_resize
  | some c =>
    obtain ⟨a, b⟩ := c
    simp only
    split
    · exact fin_ok _
    · refine fin_bind (fin_lastExtension h) fun r _ => ?_
      cases r with
      | none => exact fin_error (by decide)
      | some r =>
        obtain ⟨h, o⟩ := r
        simp only
        finishing

theorem fin_updateFinish {t : ExtType} {off : Nat} {cur : Option (Nat × Nat)} {pl : Bytes}
    {es : List Extn} (hes : CleanExts (L k).data es) (ht : t ≠ .none)
    (hf : updateFind t (L k).data ((L k).data.length + 1) assetLen = .ok (off, cur))
    (hmax : (L k).data.length ≤ 10485760) (hpl : pl.length < 1073741824)
    (hsnug : (L k).data.length < packedEnd 168 es + 16) :
    Finishes (updateFinish E L k payer sys t off cur pl) := by
  have hh := hes.hasExts.halts
  obtain ⟨e, hp, hz⟩ := hes
  have hle := hp.walk.le
  have hend := hp.end_eq
  have e16 : extLen = 16 := rfl
  have hru := le_roundUp8 (off + 16 + pl.length)
  have hrub : roundUp8 (off + 16 + pl.length) < off + 16 + pl.length + 8 := by
    unfold roundUp8; omega
  unfold updateFinish
  simp only [show extLen = 16 from rfl, align8_eq]
  refine fin_bind (fin_updateMove hh) fun L1 h1 => fin_bind fin_writeHdr fun d1 h2 =>
    fin_bind ?_ fun d2 h3 => fin_bind fin_copyData fun _ _ => fin_pure _
  rcases updateFind_packed hp (Or.inr hz) ht hf with ⟨rfl, rfl, _, hno⟩ |
      ⟨pre, p, post, rfl, hpre, _, h4, h5, rfl⟩
  · simp only at *
    unfold updateMove at h1
    have hl : d1.length = roundUp8 (off + 16 + pl.length) := by
      rw [writeHdr_length h2, (resize_eff h1).2.1, length_reallocBytes]
    have hne : fixFuel d1 ≠ 0 := by unfold fixFuel; omega
    generalize fixFuel d1 = m at hne ⊢
    cases m with
    | zero => exact absurd rfl hne
    | succ m => rw [fixBoundaries, if_neg (by omega)]; exact fin_ok _
  · simp only at *
    cases h5 with
    | @cons _ _ _ _ _ htn h50 h51 h52 h5p h5r =>
    have hoff := h4.walk.le
    have hle5 := h5r.walk.le
    have hlen5 := h5r.walk.length_le
    have hrp := le_roundUp8 (off + 16 + p.length)
    have hwrap := wrapI32_small (x := (roundUp8 (off + 16 + pl.length) : Int) - roundUp8 (off + 16 + p.length))
      (by omega) (by omega)
    rw [hwrap] at h1 ⊢
    generalize hb' : roundUp8 (off + 16 + p.length) = b at *
    generalize hu' : roundUp8 (off + 16 + pl.length) = u at *
    have h8b : b % 8 = 0 := by rw [← hb']; unfold roundUp8; omega
    have h8u : u % 8 = 0 := by rw [← hu']; unfold roundUp8; omega
    obtain ⟨g1, g2, g3, g4⟩ := updateMove_data hp.walk (Or.inr hz) (by simp) (by omega) (by omega)
      (fun h => by
        have : b = u := by rw [← hb', ← hu', h]
        omega) h1
    have w := writeHdr_ok h2
    have hlen : u + (e - b) ≤ d1.length ∧ d1.length < u + (e - b) + 16 ∧ d1.length < 4294967296 := by
      rw [w.2.1]
      by_cases h0 : (u : Int) - b = 0
      · rw [g3 h0]; omega
      · rw [g4 h0]; omega
    refine fin_fixBoundaries h5r (fun j hj => ?_) hlen.1 hlen.2.1 (by omega) (by omega) hlen.2.2
      (by unfold fixFuel; omega)
    rw [w.2.2.2.2.2 _ (by omega)]
    exact g2 j hj

theorem fin_updateValidate {t : ExtType} {b : Bytes} {cur : Option Bytes} {au : Key} :
    Finishes (updateValidate t b cur au) := by
  unfold updateValidate; finishing

theorem fin_currentPayload {d : Bytes} {o : Nat} {cur : Option (Nat × Nat)} :
    Finishes (currentPayload d o cur) := by
  unfold currentPayload; finishing

theorem fin_update {au : Key} {buf : Option Key} {x : UpdateInput} {A : Asset}
    (hs : Initialized (L k).data → (L k).owner = E.program → Stores E.program L k A ∧ Snug L k A)
    (hx : ∀ e, x.extension = some e → e.ty ≠ .none ∧ e.length.toNat < 1073741824)
    (hb : ∀ b, buf = some b → (L b).owner = E.program → (L b).data.length ≤ 10485760) :
    Finishes (processUpdate E L k au buf payer sys x) := by
  unfold processUpdate
  refine fin_bind (fin_require (by decide)) fun _ _ => fin_bind (fin_require (by decide)) fun _ ho =>
    fin_bind (fin_require (by decide)) fun _ hi => fin_bind (fin_require (by decide)) fun _ _ =>
    fin_bind (fin_require (by decide)) fun _ _ => ?_
  rw [require_ok] at ho hi
  obtain ⟨hs, hsn⟩ := hs hi ho
  have hst := stores_updateHeader hs x
  have hlen : (L.setData k (updateHeader (L k).data x) k).data.length = (L k).data.length := by
    rw [Ledger.setData_same]; exact length_updateHeader x hi.1
  have hexts : (A.retitled x).exts = A.exts := rfl
  have hso := fun y (hy : y ≠ k) => Ledger.setData_other L (updateHeader (L k).data x) hy
  have hh := hst.2.2.2.hasExts.halts
  unfold Snug at hsn
  rw [← hlen, ← hexts] at hsn
  simp only
  generalize L.setData k (updateHeader (L k).data x) = M at *
  split
  · exact fin_pure _
  · rename_i e he
    obtain ⟨h1, h2⟩ := hx e he
    unfold updateArgs
    refine fin_bind (fin_updateFind hh) fun r hr => ?_
    obtain ⟨off, cur⟩ := r
    simp only
    refine fin_bind ?_ fun pl hpl => fin_bind (fin_require (by decide)) fun _ q1 =>
      fin_bind (fin_require (by decide)) fun _ q2 => ?_
    · unfold argsPayload
      split
      · exact fin_bind fin_currentPayload fun _ _ => fin_updateValidate
      · exact fin_ok _
    · rw [require_ok] at q1 q2
      exact fin_updateFinish hst.2.2.2 h1 hr hst.2.1 (by omega) hsn
  · rename_i b _
    unfold updateBuffer
    refine fin_bind (fin_require (by decide)) fun _ bo => fin_bind (fin_require (by decide)) fun _ bk =>
      fin_bind (fin_require (by decide)) fun _ _ => fin_bind (fin_require (by decide)) fun _ _ => ?_
    rw [require_ok] at bo bk
    rw [hso b bk] at bo ⊢
    have hbl := hb b rfl bo
    split
    · exact fin_error (by decide)
    · rename_i h o hfe
      split
      · exact fin_error (by decide)
      · rename_i t ht
        have htn : t ≠ .none := by
          rintro rfl
          unfold firstExtension at hfe
          simp only at hfe
          split at hfe
          · split at hfe
            · cases hfe
            · rename_i hne heq
              cases hfe
              rw [heq] at ht
              cases ht
              exact hne rfl
            · cases hfe
          · cases hfe
        refine fin_bind (fin_updateFind hh) fun r hr => ?_
        obtain ⟨off, cur⟩ := r
        simp only
        refine fin_bind (fin_require (by decide)) fun _ _ => fin_bind (fin_require (by decide)) fun _ hl =>
          fin_bind fin_currentPayload fun _ _ => fin_bind fin_updateValidate fun v _ =>
          fin_bind (fin_require (by decide)) fun _ _ => ?_
        rw [require_ok] at hl
        have hkb : (M.setData b (splice (L b).data assetLen v)) k = M k := Ledger.setData_other _ _ (Ne.symm bk)
        refine fin_updateFinish (es := (A.retitled x).exts) (by rw [hkb]; exact hst.2.2.2) htn (by rw [hkb]; exact hr)
          (by rw [hkb]; exact hst.2.1) ?_ (by rw [hkb]; exact hsn)
        have : (slice (splice (L b).data assetLen v) (assetLen + extLen) h.len).length ≤ h.len := by
          unfold slice; rw [List.length_take]; omega
        omega
  · exact fin_error (by decide)

/-! ## An update that does not end -/

theorem fixBoundaries_same {d : Bytes} {c f : Nat} (h : c + 16 ≤ d.length) :
    fixBoundaries 0 (f + 1) d c = fixBoundaries 0 f d (u32At d (c + 8)) := by
  have e16 : extLen = 16 := rfl
  have hl : (slice d (c + 8) 4).length = 4 := length_slice (by omega)
  have hlt : u32At d (c + 8) < 4294967296 := by
    have := leNat_lt (slice d (c + 8) 4)
    rw [hl] at this
    exact this
  have hsat : satAdd32 (u32At d (c + 8)) 0 = u32At d (c + 8) := by unfold satAdd32; omega
  have hto : toLE 4 (u32At d (c + 8)) = slice d (c + 8) 4 := by
    have := toLE_leNat (slice d (c + 8) 4)
    rw [hl] at this
    exact this
  rw [fixBoundaries, if_pos (by omega), if_neg (by omega)]
  simp only
  rw [hsat, hto, splice_slice_self (by omega)]

theorem fixBoundaries_rests {d : Bytes} {f : Nat} (h : 16 ≤ d.length) (h0 : u32At d 8 = 0) :
    fixBoundaries 0 f d 0 = .error .diverge := by
  induction f with
  | zero => rfl
  | succ f ih => rw [fixBoundaries_same (by omega), Nat.zero_add, h0]; exact ih

/-- The loop follows the headers to the end of the extensions, on to zero, and stays there. -/
theorem fixBoundaries_stays {d : Bytes} {u e f : Nat} {post : List Extn} (h : Packed d u post e)
    (he : e + 16 ≤ d.length) (h0 : u32At d 8 = 0) (h1 : u32At d (e + 8) = 0) :
    fixBoundaries 0 f d u = .error .diverge := by
  induction h generalizing f with
  | nil hle =>
    cases f with
    | zero => rfl
    | succ f => rw [fixBoundaries_same he, h1]; exact fixBoundaries_rests (by omega) h0
  | @cons b e t p rest ht h0' h1' h2' hp hr ih =>
    have hle := hr.walk.le
    have hru := le_roundUp8 (b + 16 + p.length)
    cases f with
    | zero => rfl
    | succ f =>
      rw [fixBoundaries_same (by omega), show u32At d (b + 8) = _ from h2']
      exact ih he h1

theorem bind_left {α β : Type} {x : Except Err α} {f : α → Except Err β} {a : α} (h : x = .ok a) :
    (x >>= f) = f a := by subst h; rfl

theorem bind_stop {α β : Type} {x : Except Err α} {f : α → Except Err β} {e : Err} (h : x = .error e) :
    (x >>= f) = .error e := by subst h; rfl

theorem updateFinish_stays {t : ExtType} {off : Nat} {cur : Option (Nat × Nat)} {pl old : Bytes}
    {es : List Extn} {e : Nat} (hp : Packed (L k).data 168 es e) (hz : leNat (slice (L k).data e 4) = 0)
    (ht : t ≠ .none)
    (hf : updateFind t (L k).data ((L k).data.length + 1) assetLen = .ok (off, cur))
    (hold : lookup t es = some old) (hlen : pl.length = old.length)
    (he : e + 16 ≤ (L k).data.length) (h0 : u32At (L k).data 8 = 0) (h1 : u32At (L k).data (e + 8) = 0) :
    updateFinish E L k payer sys t off cur pl = .error .diverge := by
  have hle := hp.walk.le
  rcases updateFind_packed hp (Or.inr hz) ht hf with ⟨_, _, hl, _⟩ |
      ⟨pre, p, post, rfl, hpre, hl, h4, h5, rfl⟩
  · rw [hl] at hold; cases hold
  rw [hl] at hold
  obtain rfl := Option.some.inj hold
  have hoff := h4.walk.le
  cases h5 with
  | @cons _ _ _ _ _ htn h50 h51 h52 h5p h5r =>
  have hle5 := h5r.walk.le
  have hru := le_roundUp8 (off + 16 + p.length)
  obtain ⟨d1, hd1⟩ := writeHdr_live (d := (L k).data) (o := off) (ty := t.toU32) (n := pl.length)
    (b := roundUp8 (off + 16 + pl.length)) (by omega)
  have w := (writeHdr_ok hd1).2
  have hu : ∀ c, c + 4 ≤ off ∨ off + 12 ≤ c → u32At d1 c = u32At (L k).data c := by
    intro c hc
    unfold u32At
    rw [slice_congr (d := (L k).data) (b := c) fun i hi => w.2.2.2.2 _ (by omega)]
  have hmv : ∀ u delta, updateMove E L k payer sys (some (p.length, roundUp8 (off + 16 + p.length)))
      pl.length u delta = .ok L := by
    intro u delta
    unfold updateMove
    simp only
    rw [if_pos hlen.symm]
  have hw0 : wrapI32 ((roundUp8 (off + 16 + pl.length) : Nat) - (roundUp8 (off + 16 + p.length) : Nat)) = 0 := by
    rw [hlen, Int.sub_self]; rfl
  have hfx : ∀ f, fixBoundaries 0 f d1 (roundUp8 (off + 16 + pl.length)) = .error .diverge := by
    intro f
    rw [hlen]
    exact fixBoundaries_stays (h5r.congr (d' := d1) (by omega) fun i hi _ => w.2.2.2.2 i (by omega)) (by omega)
      (by rw [hu 8 (by omega)]; exact h0) (by rw [hu (e + 8) (by omega)]; exact h1)
  unfold updateFinish
  simp only [show extLen = 16 from rfl, align8_eq]
  rw [hw0, bind_left (hmv _ _), bind_left hd1, bind_stop (hfx _)]

theorem updateHeader_get {d : Bytes} (hd : 168 ≤ d.length) (x : UpdateInput) {i : Nat}
    (hi : (4 ≤ i ∧ i < 133) ∨ 168 ≤ i) : (updateHeader d x)[i]? = d[i]? := by
  have h1 : ∀ (d : Bytes) n, 168 ≤ d.length → (setName d n)[i]? = d[i]? := fun d n h => by
    have := length_podStr35 n
    exact getElem?_splice_outside (by omega) (by omega)
  have h2 : ∀ (d : Bytes) m, 168 ≤ d.length → (setMutable d m)[i]? = d[i]? := fun d m h =>
    getElem?_splice_outside (by simp; omega) (by simp; omega)
  unfold updateHeader
  cases x.name with
  | none =>
    cases x.isMutable with
    | none => rfl
    | some m => exact h2 d m hd
  | some n =>
    cases x.isMutable with
    | none => exact h1 d n hd
    | some m => exact (h2 _ m (by rw [length_setName hd]; exact hd)).trans (h1 d n hd)

theorem processUpdate_stays {A : Asset} {s : Key} {x : UpdateInput} {e : ExtInput} {p old : Bytes}
    (hs : Stores E.program L k A) (hsig : E.signer s = true) (hau : A.authority = s)
    (hmut : A.mutableByte ≠ 0) (hx : x.extension = some e) (ht : e.ty ≠ .none)
    (hold : lookup e.ty A.exts = some old) (hp : UpdatesTo s e (some old) p)
    (hlen : p.length = old.length) (he : packedEnd 168 A.exts + 16 ≤ (L k).data.length)
    (h0 : leNat (slice (L k).data 8 4) = 0)
    (h1 : leNat (slice (L k).data (packedEnd 168 A.exts + 8) 4) = 0) :
    processUpdate E L k s none payer sys x = .error .diverge := by
  have hst := stores_updateHeader hs x
  have h168 : 168 ≤ packedEnd 168 A.exts := by
    obtain ⟨_, _, _, e', g1, _⟩ := hs
    rw [← g1.end_eq]; exact g1.walk.le.1
  have hl : (updateHeader (L k).data x).length = (L k).data.length := length_updateHeader x hs.1.2.1
  have hM : ((L.setData k (updateHeader (L k).data x)) k).data = updateHeader (L k).data x := by
    rw [Ledger.setData_same]
  generalize hMd : L.setData k (updateHeader (L k).data x) = M at *
  obtain ⟨_, _, _, c, g1, g2⟩ := id hst
  have hc : c = packedEnd 168 A.exts := g1.end_eq
  obtain ⟨⟨off, cur⟩, hfind⟩ := updateFind_live (t := e.ty) g1 (Or.inr g2) ht
    (fun _ => .inr (by rw [hM, hl]; omega))
  have harg : argsPayload (M k).data off cur s e = .ok p := by
    have hcur := currentPayload_live g1 (Or.inr g2) ht hfind
    rw [show (A.retitled x).exts = A.exts from rfl, hold] at hcur
    unfold argsPayload
    unfold UpdatesTo at hp
    cases hd : e.data with
    | none => rw [hd] at hp; rw [hp.1]
    | some new =>
      rw [hd] at hp
      simp only at hp ⊢
      inv
      exact ⟨_, hcur, (updateValidate_iff ht).mpr ⟨hp.1, hp.2.2.2.1, hp.2.2.2.2, hp.2.2.1⟩⟩
  have hlen' : p.length = e.length.toNat := by
    unfold UpdatesTo at hp
    cases hd : e.data with
    | none => rw [hd] at hp; rw [hp.1, hp.2]; rfl
    | some new => rw [hd] at hp; exact hp.2.1
  have hfin := updateFinish_stays (E := E) (payer := payer) (sys := sys) g1 g2 ht hfind hold hlen
    (by rw [hM, hl]; omega) (by
      rw [hM]
      unfold u32At
      rw [slice_congr (d := (L k).data) (b := 8) fun i hi => updateHeader_get hs.1.2.1 x (by omega)]
      exact h0) (by
      rw [hM]
      unfold u32At
      rw [slice_congr (d := (L k).data) (b := c + 8) fun i hi => updateHeader_get hs.1.2.1 x (by omega), hc]
      exact h1)
  have r1 : require ((E.signer s : Bool) = true) .missingRequiredSignature = .ok () := require_ok.mpr hsig
  have r2 : require ((L k).owner = E.program) .illegalOwner = .ok () := require_ok.mpr hs.1.1
  have r3 : require (Initialized (L k).data) (.asset .uninitialized) = .ok () := require_ok.mpr hs.init
  have r4 : require (hAuthority (L k).data = s) (.asset .invalidAuthority) = .ok () :=
    require_ok.mpr (by rw [hs.authority_eq]; exact hau)
  have r5 : require (hMutable (L k).data = true) (.asset .immutableAsset) = .ok () :=
    require_ok.mpr (hs.isMutable hmut)
  have r6 : require (¬ p.length < e.length.toNat) (.asset .extensionDataInvalid) = .ok () :=
    require_ok.mpr (by omega)
  have r7 : require (¬ e.length.toNat < p.length) (.asset .extensionLengthInvalid) = .ok () :=
    require_ok.mpr (by omega)
  unfold processUpdate
  rw [bind_left r1, bind_left r2]
  simp only
  rw [bind_left r3, bind_left r4, bind_left r5, hx, hMd]
  simp only
  unfold updateArgs
  simp only
  rw [bind_left hfind]
  simp only
  rw [bind_left harg, bind_left r6, bind_left r7]
  exact hfin

end Verif
