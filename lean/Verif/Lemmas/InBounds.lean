import Verif.Lemmas.WellFormed
import Verif.Lemmas.Loss

/-!
# Which parts of the program stay inside account data

`Inside r`: the computation does not end because raw memory was accessed out of bounds.
-/

namespace Verif

open Verif.Spec

variable {α β : Type}

/-- The computation does not access memory out of bounds. -/
def Inside (r : Except Err α) : Prop := r ≠ .error .oob

theorem inside_ok (a : α) : Inside (.ok a : Except Err α) := by intro h; cases h

theorem inside_pure (a : α) : Inside (pure a : Except Err α) := by intro h; cases h

theorem inside_error {e : Err} (h : e ≠ .oob) : Inside (.error e : Except Err α) := by
  intro hh; exact h (Except.error.inj hh)

theorem inside_bind {x : Except Err α} {f : α → Except Err β} (hx : Inside x)
    (hf : ∀ a, x = .ok a → Inside (f a)) : Inside (x >>= f) := by
  cases x with
  | error e => exact fun h => hx (congrArg Except.error (Except.error.inj h))
  | ok a => exact hf a rfl

theorem inside_require {c : Prop} [Decidable c] {e : Err} (h : e ≠ .oob) : Inside (require c e) := by
  unfold require
  split
  · exact inside_ok _
  · exact inside_error h

/-- One step of the analysis. -/
syntax "safe1" : tactic
macro_rules | `(tactic| safe1) => `(tactic| split)
macro_rules | `(tactic| safe1) => `(tactic| refine inside_bind ?_ (fun _ _ => ?_))
macro_rules | `(tactic| safe1) => `(tactic| exact inside_error (by decide))
macro_rules | `(tactic| safe1) => `(tactic| exact inside_require (by decide))
macro_rules | `(tactic| safe1) => `(tactic| with_reducible exact inside_pure _)
macro_rules | `(tactic| safe1) => `(tactic| with_reducible exact inside_ok _)
macro_rules | `(tactic| safe1) => `(tactic| assumption)

/-- Opens up a `do` block. -/
macro "safe" : tactic => `(tactic| repeat' safe1)

/-! ## Readers -/

theorem inside_findFrom (t : ExtType) (d : Bytes) (n c : Nat) : Inside (findFrom t d n c) := by
  induction n generalizing c with
  | zero => exact inside_error (by decide)
  | succ n ih => unfold findFrom; simp only; safe; exact ih _
macro_rules | `(tactic| safe1) => `(tactic| with_reducible exact inside_findFrom _ _ _ _)

theorem inside_payloadAt (d : Bytes) (c : Nat) : Inside (payloadAt d c) := by
  unfold payloadAt; simp only; safe
macro_rules | `(tactic| safe1) => `(tactic| with_reducible exact inside_payloadAt _ _)

theorem inside_assetContains (t : ExtType) (d : Bytes) : Inside (assetContains t d) := by
  unfold assetContains find; safe
macro_rules | `(tactic| safe1) => `(tactic| with_reducible exact inside_assetContains _ _)

theorem inside_assetGet (t : ExtType) (d : Bytes) : Inside (assetGet t d) := by
  unfold assetGet find; safe
macro_rules | `(tactic| safe1) => `(tactic| with_reducible exact inside_assetGet _ _)

theorem inside_assetGetMut (t : ExtType) (d : Bytes) : Inside (assetGetMut t d) := by
  unfold assetGetMut find; safe
macro_rules | `(tactic| safe1) => `(tactic| with_reducible exact inside_assetGetMut _ _)

theorem inside_lastFrom (d : Bytes) (n c : Nat) (l : Option (Hdr × Nat)) : Inside (lastFrom d n c l) := by
  induction n generalizing c l with
  | zero => exact inside_error (by decide)
  | succ n ih => unfold lastFrom; simp only; safe; exact ih _ _

theorem inside_lastExtension (d : Bytes) : Inside (lastExtension d) := inside_lastFrom _ _ _ _
macro_rules | `(tactic| safe1) => `(tactic| with_reducible exact inside_lastExtension _)

theorem inside_extFindFrom (t : ExtType) (d : Bytes) (n c : Nat) : Inside (extFindFrom t d n c) := by
  induction n generalizing c with
  | zero => exact inside_error (by decide)
  | succ n ih => unfold extFindFrom; simp only; safe; exact ih _
macro_rules | `(tactic| safe1) => `(tactic| with_reducible exact inside_extFindFrom _ _ _ _)

theorem inside_extGet (t : ExtType) (d : Bytes) : Inside (extGet t d) := by unfold extGet; safe
macro_rules | `(tactic| safe1) => `(tactic| with_reducible exact inside_extGet _ _)

theorem inside_readStr (b : Bytes) : Inside (readStr b) := by unfold readStr; safe
macro_rules | `(tactic| safe1) => `(tactic| with_reducible exact inside_readStr _)

theorem inside_readPairs (n : Nat) (b : Bytes) : Inside (readPairs n b) := by
  induction n generalizing b with
  | zero => exact inside_error (by decide)
  | succ n ih => unfold readPairs; safe; exact ih _
macro_rules | `(tactic| safe1) => `(tactic| with_reducible exact inside_readPairs _ _)

theorem inside_readPropValue (b : Bytes) : Inside (readPropValue b) := by unfold readPropValue; safe
macro_rules | `(tactic| safe1) => `(tactic| with_reducible exact inside_readPropValue _)

theorem inside_readProps (n : Nat) (b : Bytes) : Inside (readProps n b) := by
  induction n generalizing b with
  | zero => exact inside_error (by decide)
  | succ n ih => unfold readProps; safe; exact ih _
macro_rules | `(tactic| safe1) => `(tactic| with_reducible exact inside_readProps _ _)

theorem inside_readGrouping (b : Bytes) : Inside (readGrouping b) := by unfold readGrouping; safe
macro_rules | `(tactic| safe1) => `(tactic| with_reducible exact inside_readGrouping _)

theorem inside_readManager (b : Bytes) : Inside (readManager b) := by unfold readManager; safe
macro_rules | `(tactic| safe1) => `(tactic| with_reducible exact inside_readManager _)

theorem inside_readProxy (b : Bytes) : Inside (readProxy b) := by unfold readProxy; safe
macro_rules | `(tactic| safe1) => `(tactic| with_reducible exact inside_readProxy _)

theorem inside_readCreators (b : Bytes) : Inside (readCreators b) := by unfold readCreators; safe
macro_rules | `(tactic| safe1) => `(tactic| with_reducible exact inside_readCreators _)

theorem inside_readBlob (b : Bytes) : Inside (readBlob b) := by unfold readBlob; safe
macro_rules | `(tactic| safe1) => `(tactic| with_reducible exact inside_readBlob _)

theorem inside_readBucket (b : Bytes) : Inside (readBucket b) := by unfold readBucket; safe
macro_rules | `(tactic| safe1) => `(tactic| with_reducible exact inside_readBucket _)

theorem inside_readMetadata (b : Bytes) : Inside (readMetadata b) := by
  unfold readMetadata; safe
  simp only; safe
macro_rules | `(tactic| safe1) => `(tactic| with_reducible exact inside_readMetadata _)

theorem inside_parseKeys (b : Bytes) : Inside (parseKeys b) := by unfold parseKeys; safe
macro_rules | `(tactic| safe1) => `(tactic| with_reducible exact inside_parseKeys _)

theorem inside_parse (n : Nat) : (∀ b, Inside (parseC n b)) ∧ ∀ b, Inside (parseL n b) := by
  induction n with
  | zero =>
    exact ⟨fun b => by unfold parseC; exact inside_error (by decide),
      fun b => by unfold parseL; exact inside_error (by decide)⟩
  | succ n ih =>
    obtain ⟨h1, h2⟩ := ih
    refine ⟨fun b => ?_, fun b => ?_⟩
    · unfold parseC; simp only; safe <;> first | exact h1 _ | exact h2 _
    · unfold parseL; safe <;> first | exact h1 _ | exact h2 _

theorem inside_parseConstraint (b : Bytes) : Inside (parseConstraint b) := by
  unfold parseConstraint; safe; exact (inside_parse _).1 _
macro_rules | `(tactic| safe1) => `(tactic| with_reducible exact inside_parseConstraint _)

theorem inside_readRoyalties (b : Bytes) : Inside (readRoyalties b) := by unfold readRoyalties; safe
macro_rules | `(tactic| safe1) => `(tactic| with_reducible exact inside_readRoyalties _)

theorem inside_evalC (ctx : CCtx) (c : Cst) : Inside (evalC ctx c) := by
  intro h
  rcases evalC_err ctx c _ h with h | h <;> cases h
macro_rules | `(tactic| safe1) => `(tactic| with_reducible exact inside_evalC _ _)

theorem inside_managerOf (d : Bytes) : Inside (managerOf d) := by unfold managerOf; safe
macro_rules | `(tactic| safe1) => `(tactic| with_reducible exact inside_managerOf _)

theorem inside_keepVerified (a b : List Creator) : Inside (creatorsKeepVerified a b) := by
  induction a with
  | nil => exact inside_ok _
  | cons c a ih => unfold creatorsKeepVerified; safe
macro_rules | `(tactic| safe1) => `(tactic| with_reducible exact inside_keepVerified _ _)

theorem inside_onCreate (t : ExtType) (b : Bytes) (a : Option Key) : Inside (onCreate t b a) := by
  unfold onCreate readPairList readPropList groupingOnCreate royaltiesCheck creatorsOnCreate
  simp only; safe
macro_rules | `(tactic| safe1) => `(tactic| with_reducible exact inside_onCreate _ _ _)

theorem inside_onUpdate (t : ExtType) (o b : Bytes) (a : Option Key) : Inside (onUpdate t o b a) := by
  unfold onUpdate readPairList readPropList groupingOnUpdate royaltiesCheck creatorsOnUpdate proxyOnUpdate
  simp only; safe
macro_rules | `(tactic| safe1) => `(tactic| with_reducible exact inside_onUpdate _ _ _ _)

theorem inside_mapLife {r : Except Err α} (h : Inside r) : Inside (mapLife r) := by
  unfold mapLife; split
  · exact inside_error (by decide)
  · exact h
macro_rules | `(tactic| safe1) => `(tactic| refine inside_mapLife ?_)

/-! ## The runtime -/

theorem inside_assertDelegate (ds : List (Option Delegate)) (k : Key) (r : Role) :
    Inside (assertDelegate ds k r) := by
  unfold assertDelegate
  have : ∀ (ds : List (Option Delegate)) (x : Except Err Unit), Inside x →
      Inside (ds.foldl (assertDelegateStep k r) x) := by
    intro ds
    induction ds with
    | nil => exact fun x h => h
    | cons y ds ih =>
      intro x h
      refine ih _ ?_
      unfold assertDelegateStep; safe
  exact this _ _ (inside_error (by decide))
macro_rules | `(tactic| safe1) => `(tactic| with_reducible exact inside_assertDelegate _ _ _)

section
variable {E : Env} {L : Ledger} {k : Key} {payer sys : Option Key} {n : Nat}

theorem inside_royalties {a s r : Key} {d : Bytes} : Inside (processRoyalties E L a s r d) := by
  unfold processRoyalties; safe
macro_rules | `(tactic| safe1) => `(tactic| with_reducible exact inside_royalties)

theorem inside_transfer {s d : Key} : Inside (systemTransfer E L s d n) := by
  unfold systemTransfer; simp only; safe
macro_rules | `(tactic| safe1) => `(tactic| with_reducible exact inside_transfer)

theorem inside_resize : Inside (resize E L n k payer sys) := by
  unfold resize resizeLamports resizeRefund resizeFund realloc; simp only; safe
macro_rules | `(tactic| safe1) => `(tactic| with_reducible exact inside_resize)

theorem inside_resizeIf {c : Bool} : Inside (resizeIf E c L n k payer sys) := by
  unfold resizeIf; safe
macro_rules | `(tactic| safe1) => `(tactic| with_reducible exact inside_resizeIf)

theorem inside_createAccount : Inside (createAccount E L k payer sys n) := by
  unfold createAccount systemCreate; simp only; safe
macro_rules | `(tactic| safe1) => `(tactic| with_reducible exact inside_createAccount)

theorem inside_closeAccount {r : Key} : Inside (closeAccount L k r) := by
  unfold closeAccount; simp only; safe
macro_rules | `(tactic| safe1) => `(tactic| with_reducible exact inside_closeAccount)

theorem inside_writeHdr {d : Bytes} {o a b c : Nat} : Inside (writeHdr d o a b c) := by
  unfold writeHdr; safe
macro_rules | `(tactic| safe1) => `(tactic| with_reducible exact inside_writeHdr)

/-! ## Instructions without raw accesses -/

theorem inside_group {a g au : Key} : Inside (processGroup E L a g au) := by
  unfold processGroup groupAuthority; simp only; safe
macro_rules | `(tactic| safe1) => `(tactic| with_reducible exact inside_group)

theorem inside_setVerified {a c : Key} {b : Bool} : Inside (processSetVerified E L a c b) := by
  unfold processSetVerified; simp only; safe
macro_rules | `(tactic| safe1) => `(tactic| with_reducible exact inside_setVerified)

theorem inside_ownerOrDelegate {d : Bytes} {s : Key} {r : Role} : Inside (ownerOrDelegate d s r) := by
  unfold ownerOrDelegate; safe
macro_rules | `(tactic| safe1) => `(tactic| with_reducible exact inside_ownerOrDelegate)

theorem inside_transferGroup {a s r : Key} {g : Option Key} {d : Bytes} {b : Bool} :
    Inside (transferGroupCheck E L a s r g d b) := by
  unfold transferGroupCheck; simp only; safe
macro_rules | `(tactic| safe1) => `(tactic| with_reducible exact inside_transferGroup)

theorem inside_burnGroup {a : Key} {g : Option Key} {d : Bytes} : Inside (burnGroup L a g d) := by
  unfold burnGroup; simp only; safe
macro_rules | `(tactic| safe1) => `(tactic| with_reducible exact inside_burnGroup)

theorem inside_processTransfer {a s r : Key} {g : Option Key} : Inside (processTransfer E L a s r g) := by
  unfold processTransfer; simp only; safe

theorem inside_processBurn {a s : Key} {r g : Option Key} : Inside (processBurn E L a s r g) := by
  unfold processBurn; simp only; safe

theorem inside_processClose {a r : Key} : Inside (processClose E L a r) := by
  unfold processClose; simp only; safe

theorem inside_processApprove {a o d : Key} {x : DelegateInput} : Inside (processApprove E L a o d x) := by
  unfold processApprove; simp only; safe

theorem inside_processRevoke {a s : Key} {x : DelegateInput} : Inside (processRevoke E L a s x) := by
  unfold processRevoke; simp only; safe

theorem inside_processLock {a s : Key} : Inside (processLock E L a s) := by
  unfold processLock lockAuthority; simp only; safe

theorem inside_processUnlock {a s : Key} : Inside (processUnlock E L a s) := by
  unfold processUnlock lockAuthority; simp only; safe

theorem inside_processUngroup {a g au : Key} : Inside (processUngroup E L a g au) := by
  unfold processUngroup groupAuthority; simp only; safe

theorem inside_processHandover {a au nu : Key} : Inside (processHandover E L a au nu) := by
  unfold processHandover; simp only; safe

theorem inside_processResize {a au p : Key} {s : Strategy} : Inside (processResize E L a au p sys s) := by
  unfold processResize resizeTarget; simp only; safe

/-! ## Allocate and Create -/

theorem inside_memcpy {d bs : Bytes} {o : Nat} (h : o + bs.length ≤ d.length) : Inside (memcpy d o bs) := by
  unfold memcpy
  rw [if_neg (by omega), if_neg (by omega)]
  exact inside_ok _

theorem inside_copyData {d bs : Bytes} {o : Nat} (h : o + bs.length ≤ d.length) :
    Inside (copyData d o bs) := by
  unfold copyData
  split
  · exact inside_ok _
  · exact inside_memcpy h

theorem inside_allocateOffset {t : ExtType} : Inside (allocateOffset E L k t) := by
  unfold allocateOffset; simp only; safe

theorem inside_save {x : ExtInput} {ex : Bool} {o : Nat} {data : Bytes} (hd : data.length < 4294967296) :
    Inside (saveExtensionData E L k payer sys x ex o data) := by
  have e32 : two32 = 4294967296 := rfl
  have hru := le_roundUp8 (o + extLen + x.length.toNat)
  have hlen : o + extLen + data.length ≤ allocateExtended x.length o data := by
    unfold allocateExtended
    split
    · rename_i h
      rw [Nat.mod_eq_of_lt (by omega)] at h
      rw [← h]; exact hru
    · exact Nat.le_refl _
  unfold saveExtensionData
  simp only
  refine inside_bind ?_ fun L1 h1 => inside_bind inside_writeHdr fun d h2 =>
    inside_bind (inside_copyData ?_) fun _ _ => inside_pure _
  · unfold allocateSpace; simp only; safe
  · rw [writeHdr_length h2]
    refine Nat.le_trans hlen ?_
    unfold allocateSpace at h1
    simp only at h1
    split at h1
    · rw [(createAccount_eff h1).2.1, zeros, List.length_replicate]; exact Nat.le_refl _
    · split at h1
      · rw [(resize_eff h1).2.1, length_reallocBytes]; exact Nat.le_refl _
      · rename_i hc
        cases h1
        omega

theorem inside_allocate {x : ExtInput} (hd : ∀ p, x.data = some p → p.length < 4294967296) :
    Inside (processAllocate E L k payer sys x) := by
  unfold processAllocate
  refine inside_bind (inside_require (by decide)) fun _ _ => inside_bind inside_allocateOffset fun _ _ => ?_
  cases hx : x.data with
  | none => exact inside_save (by decide)
  | some p => exact inside_bind (inside_require (by decide)) fun _ _ => inside_save (hd p hx)

theorem inside_allocateAll {xs : List ExtInput} (hd : ∀ x ∈ xs, ∀ p, x.data = some p → p.length < 4294967296) :
    Inside (allocateAll E k payer sys xs L) := by
  induction xs generalizing L with
  | nil => exact inside_ok _
  | cons x xs ih =>
    unfold allocateAll
    exact inside_bind (inside_allocate (hd x (by simp))) fun _ _ => ih fun y hy => hd y (by simp [hy])

theorem inside_createValidate (au : Key) (n : Nat) (d : Bytes) (o : Nat) :
    Inside (createValidate au n d o) := by
  induction n generalizing d o with
  | zero => exact inside_error (by decide)
  | succ n ih => unfold createValidate; simp only; safe; exact ih _ _
macro_rules | `(tactic| safe1) => `(tactic| with_reducible exact inside_createValidate _ _ _ _)

theorem inside_proxyCheck {d : Bytes} {s : Standard} : Inside (createProxyCheck E k d s) := by
  unfold createProxyCheck; safe
macro_rules | `(tactic| safe1) => `(tactic| with_reducible exact inside_proxyCheck)

theorem inside_create {au o : Key} {g ga : Option Key} {x : CreateInput}
    (hd : ∀ y ∈ createOrder (x.extensions.getD []), ∀ p, y.data = some p → p.length < 4294967296) :
    Inside (processCreate E L k au o g ga payer sys x) := by
  unfold processCreate
  refine inside_bind (inside_require (by decide)) fun _ _ => inside_bind ?_ fun _ _ =>
    inside_bind (inside_allocateAll hd) fun _ _ => ?_
  · unfold createPrepare; simp only; safe
  · refine inside_bind (inside_require (by decide)) fun _ _ => inside_bind (inside_createValidate _ _ _ _)
      fun _ _ => inside_bind (inside_require (by decide)) fun _ _ => inside_bind inside_proxyCheck fun _ _ => ?_
    cases g with
    | none => exact inside_pure _
    | some g => exact inside_group

/-! ## Write, Update and Remove -/

theorem inside_writeValidate {d : Bytes} : Inside (writeValidate d) := by
  unfold writeValidate; safe
macro_rules | `(tactic| safe1) => `(tactic| with_reducible exact inside_writeValidate)

/-- The boundary of the last extension is not before the end of its data. -/
theorem Spec.Buffer.last {d : Bytes} {h : Hdr} {o : Nat} (hb : Buffer d) (hl : 168 ≤ d.length)
    (hh : lastExtension d = .ok (some (h, o))) : o + h.len ≤ h.bnd := by
  rcases hb.cases hl with ⟨es, ⟨_, e, hp, hz⟩, _⟩ | ⟨es, t, n, p, hc, _⟩
  · rcases lastExtension_walk hp.walk (Or.inr (leNat_slice_zero hz)) with
      ⟨g1, _⟩ | ⟨pre, t, p, m, rfl, g1, g2, g3⟩
    · rw [g1] at hh; cases hh
    · rw [g3] at hh; cases hh
      obtain ⟨g1, g2, g3, g4, g5, g6, g7, g8⟩ := g2.head
      have := g8.le
      simp only; omega
  · obtain ⟨m, _, _, h3⟩ := lastExtension_pending hc
    rw [h3] at hh; cases hh
    exact le_roundUp8 _

theorem inside_write {p s : Key} {x : WriteInput} (hb : (L k).owner = E.program →
    ∀ h o, lastExtension (L k).data = .ok (some (h, o)) → hDisc (L k).data = discUninit →
      168 ≤ (L k).data.length → o + h.len ≤ h.bnd) :
    Inside (processWrite E L k p s x) := by
  unfold processWrite
  refine inside_bind (inside_require (by decide)) fun _ _ => inside_bind (inside_require (by decide)) fun _ _ =>
    inside_bind (inside_require (by decide)) fun _ _ => inside_bind (inside_require (by decide)) fun _ ho =>
    inside_bind (inside_require (by decide)) fun _ hl => inside_bind (inside_require (by decide)) fun _ hd =>
    inside_bind (inside_lastExtension _) fun r hr => ?_
  rw [require_ok] at ho hl hd
  cases r with
  | none => exact inside_error (by decide)
  | some r =>
    obtain ⟨h, o⟩ := r
    have hbnd := hb ho h o hr hd hl
    simp only
    refine inside_bind (inside_require (by decide)) fun _ hle => inside_bind inside_resize fun L1 h1 =>
      inside_bind (inside_memcpy ?_) fun d2 _ => ?_
    · rw [(resize_eff h1).2.1, length_reallocBytes]
      rw [require_ok] at hle
      cases x.overwrite with
      | true => simp
      | false =>
        simp only [Bool.false_eq_true, if_false]
        split
        · omega
        · exact Nat.le_refl _
    · safe

theorem inside_memmove {d : Bytes} {dst src n : Nat} (h : src + n ≤ d.length) (h' : dst + n ≤ d.length) :
    Inside (memmove d dst src n) := by
  unfold memmove
  split
  · exact inside_ok _
  · rw [if_neg (by omega)]; exact inside_ok _

theorem inside_updateFind (t : ExtType) (d : Bytes) (n c : Nat) : Inside (updateFind t d n c) := by
  induction n generalizing c with
  | zero => exact inside_error (by decide)
  | succ n ih => unfold updateFind; simp only; safe; exact ih _

theorem inside_removeFind (t : ExtType) (d : Bytes) (n c : Nat) : Inside (removeFind t d n c) := by
  induction n generalizing c with
  | zero => exact inside_error (by decide)
  | succ n ih => unfold removeFind; simp only; safe; exact ih _

theorem inside_fixBoundaries (delta : Int) (n : Nat) (d : Bytes) (c : Nat) :
    Inside (fixBoundaries delta n d c) := by
  induction n generalizing d c with
  | zero => exact inside_error (by decide)
  | succ n ih => unfold fixBoundaries; simp only; safe; exact ih _ _

theorem inside_updateFinish {t : ExtType} {off : Nat} {cur : Option (Nat × Nat)} {pl : Bytes}
    {es : List Extn} (hes : CleanExts (L k).data es) (ht : t ≠ .none)
    (hf : updateFind t (L k).data ((L k).data.length + 1) assetLen = .ok (off, cur))
    (hmax : (L k).data.length ≤ 10485760) (hpl : pl.length < 1073741824) :
    Inside (updateFinish E L k payer sys t off cur pl) := by
  obtain ⟨e, hp, hz⟩ := hes
  have hle := hp.walk.le
  have e16 : extLen = 16 := rfl
  have hru := le_roundUp8 (off + 16 + pl.length)
  have hrub : roundUp8 (off + 16 + pl.length) < off + 16 + pl.length + 8 := by
    unfold roundUp8; omega
  unfold updateFinish
  simp only [show extLen = 16 from rfl, align8_eq]
  rcases updateFind_packed hp (Or.inr hz) ht hf with ⟨rfl, rfl, _, hno⟩ |
      ⟨pre, p, post, rfl, hpre, _, h4, h5, rfl⟩
  · simp only
    refine inside_bind ?_ fun L1 h1 => inside_bind inside_writeHdr fun d1 h2 =>
      inside_bind (inside_fixBoundaries _ _ _ _) fun d2 h3 => inside_bind (inside_copyData ?_) fun _ _ =>
      inside_pure _
    · unfold updateMove; exact inside_resize
    · unfold updateMove at h1
      rw [fixBoundaries_length h3, writeHdr_length h2, (resize_eff h1).2.1, length_reallocBytes]
      exact hru
  · simp only
    have hoff := h4.walk.le
    have hb := h5.walk.le
    have hlen5 : roundUp8 (off + 16 + p.length) ≤ e := by
      cases h5 with
      | cons _ _ _ hb' _ hr => exact hr.walk.le.1
    have hrp := le_roundUp8 (off + 16 + p.length)
    have hwrap := wrapI32_small (x := (roundUp8 (off + 16 + pl.length) : Int) - roundUp8 (off + 16 + p.length))
      (by omega) (by omega)
    rw [hwrap]
    generalize hb' : roundUp8 (off + 16 + p.length) = b at *
    generalize hu' : roundUp8 (off + 16 + pl.length) = u at *
    refine inside_bind ?_ fun L1 h1 => inside_bind inside_writeHdr fun d1 h2 =>
      inside_bind (inside_fixBoundaries _ _ _ _) fun d2 h3 => inside_bind (inside_copyData ?_) fun _ _ =>
      inside_pure _
    · unfold updateMove
      simp only
      split
      · exact inside_ok _
      · refine inside_bind (inside_lastExtension _) fun r hr => ?_
        rcases lastExtension_walk hp.walk (Or.inr hz) with ⟨h1, h2⟩ | ⟨pre', t', p', m, _, _, _, h3⟩
        · simp at h2
        · rw [h3, Except.ok.injEq] at hr
          subst hr
          simp only
          refine inside_bind inside_resizeIf fun L1 h1 => inside_bind (inside_memmove ?_ ?_) fun _ _ =>
            inside_resizeIf
          all_goals
            have g1 := resizeIf_data h1
            by_cases hpos : 0 < (u : Int) - b
            · simp only [decide_eq_true hpos, if_true] at g1
              rw [g1, length_reallocBytes]
              omega
            · simp only [decide_eq_false hpos, Bool.false_eq_true, if_false] at g1
              rw [g1]
              omega
    · rw [fixBoundaries_length h3, writeHdr_length h2]
      obtain ⟨g1, g2, g3, g4⟩ := updateMove_data hp.walk (Or.inr hz) (by simp) hlen5 (by omega)
        (fun h => by
          have : b = u := by rw [← hb', ← hu', h]
          omega) h1
      by_cases h0 : (u : Int) - b = 0
      · rw [g3 h0]; omega
      · rw [g4 h0]; omega

theorem inside_updateValidate {t : ExtType} {b : Bytes} {cur : Option Bytes} {au : Key} :
    Inside (updateValidate t b cur au) := by
  unfold updateValidate; safe

theorem inside_currentPayload {d : Bytes} {o : Nat} {cur : Option (Nat × Nat)} :
    Inside (currentPayload d o cur) := by
  unfold currentPayload; safe

theorem inside_update {au : Key} {buf : Option Key} {x : UpdateInput} {A : Asset}
    (hs : Initialized (L k).data → (L k).owner = E.program → Stores E.program L k A)
    (hx : ∀ e, x.extension = some e → e.ty ≠ .none ∧ e.length.toNat < 1073741824)
    (hb : ∀ b, buf = some b → (L b).owner = E.program → (L b).data.length ≤ 10485760) :
    Inside (processUpdate E L k au buf payer sys x) := by
  unfold processUpdate
  refine inside_bind (inside_require (by decide)) fun _ _ => inside_bind (inside_require (by decide)) fun _ ho =>
    inside_bind (inside_require (by decide)) fun _ hi => inside_bind (inside_require (by decide)) fun _ _ =>
    inside_bind (inside_require (by decide)) fun _ _ => ?_
  rw [require_ok] at ho hi
  have hst := stores_updateHeader (hs hi ho) x
  have hso := fun y (hy : y ≠ k) => Ledger.setData_other L (updateHeader (L k).data x) hy
  simp only
  generalize L.setData k (updateHeader (L k).data x) = M at *
  split
  · exact inside_pure _
  · rename_i e he
    obtain ⟨h1, h2⟩ := hx e he
    unfold updateArgs
    refine inside_bind (inside_updateFind _ _ _ _) fun r hr => ?_
    obtain ⟨off, cur⟩ := r
    simp only
    refine inside_bind ?_ fun pl hpl => inside_bind (inside_require (by decide)) fun _ q1 =>
      inside_bind (inside_require (by decide)) fun _ q2 => ?_
    · unfold argsPayload
      split
      · exact inside_bind inside_currentPayload fun _ _ => inside_updateValidate
      · exact inside_ok _
    · rw [require_ok] at q1 q2
      exact inside_updateFinish hst.2.2.2 h1 hr hst.2.1 (by omega)
  · rename_i b _
    unfold updateBuffer
    refine inside_bind (inside_require (by decide)) fun _ bo => inside_bind (inside_require (by decide)) fun _ bk =>
      inside_bind (inside_require (by decide)) fun _ _ => inside_bind (inside_require (by decide)) fun _ _ => ?_
    rw [require_ok] at bo bk
    rw [hso b bk] at bo ⊢
    have hbl := hb b rfl bo
    split
    · exact inside_error (by decide)
    · rename_i h o hfe
      split
      · exact inside_error (by decide)
      · rename_i t ht
        have htn : t ≠ .none := by
          rintro rfl
          unfold firstExtension at hfe
          simp only at hfe
          split at hfe
          · split at hfe
            · cases hfe
            · rename_i hne heq
              cases hfe
              rw [heq] at ht
              cases ht
              exact hne rfl
            · cases hfe
          · cases hfe
        refine inside_bind (inside_updateFind _ _ _ _) fun r hr => ?_
        obtain ⟨off, cur⟩ := r
        simp only
        refine inside_bind (inside_require (by decide)) fun _ _ => inside_bind (inside_require (by decide)) fun _ hl =>
          inside_bind inside_currentPayload fun _ _ => inside_bind inside_updateValidate fun v _ =>
          inside_bind (inside_require (by decide)) fun _ _ => ?_
        rw [require_ok] at hl
        have hkb : (M.setData b (splice (L b).data assetLen v)) k = M k := Ledger.setData_other _ _ (Ne.symm bk)
        refine inside_updateFinish (es := A.exts) (by rw [hkb]; exact hst.2.2.2) htn (by rw [hkb]; exact hr)
          (by rw [hkb]; exact hst.2.1) ?_
        have : (slice (splice (L b).data assetLen v) (assetLen + extLen) h.len).length ≤ h.len := by
          unfold slice; rw [List.length_take]; omega
        omega
  · exact inside_error (by decide)

theorem inside_remove {au r : Key} {t : ExtType} {A : Asset} (ht : t ≠ .none)
    (hs : Initialized (L k).data → (L k).owner = E.program → Stores E.program L k A) :
    Inside (processRemove E L k au r t) := by
  unfold processRemove
  refine inside_bind (inside_require (by decide)) fun _ _ => inside_bind (inside_require (by decide)) fun _ ho =>
    inside_bind (inside_require (by decide)) fun _ hi => inside_bind (inside_require (by decide)) fun _ _ =>
    inside_bind (inside_require (by decide)) fun _ _ => inside_bind (inside_removeFind _ _ _ _) fun y hy => ?_
  rw [require_ok] at ho hi
  obtain ⟨_, _, _, e, hp, hz⟩ := hs hi ho
  cases y with
  | none => exact inside_error (by decide)
  | some y =>
    obtain ⟨off, b⟩ := y
    obtain ⟨pre, p, post, _, _, h4, h5, h6⟩ := removeFind_packed hp hz ht hy
    simp only at h4 h5 h6 ⊢
    have hru := le_roundUp8 (off + 16 + p.length)
    have hb : b ≤ (L k).data.length := by
      have h7 := h5.walk.le
      cases h5 with
      | cons _ _ _ hb' _ hr => have := hr.walk.le; omega
    refine inside_bind ?_ fun _ _ => inside_bind (inside_memmove (by omega) (by omega)) fun _ _ => inside_resize
    unfold removeAllowed; safe

end

end Verif
