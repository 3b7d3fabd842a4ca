import Verif.Spec.Local
import Verif.Model.Program

/-!
# Every step of the program on a merged ledger

What the program does with the accounts in `S` it does in the same way whatever the other accounts
are: each step on `merge L S M` is the step on `L`, merged with `M` afterwards.
-/

namespace Verif

open Verif.Spec

variable {E : Env} {L M : Ledger} {S : List Key} {k p q : Key} {f : Key → Nat}

set_option linter.unusedSimpArgs false
set_option linter.unusedSectionVars false

/-- The lengths at the start are those of `E` for the accounts in `S`. -/
class SameLen (E : Env) (f : Key → Nat) (S : List Key) : Prop where
  same : ∀ x ∈ S, f x = E.origLen x

variable [SameLen E f S]

theorem lens_program : (E.lens f).program = E.program := rfl
theorem lens_signer : (E.lens f).signer = E.signer := rfl
theorem lens_writable : (E.lens f).writable = E.writable := rfl
theorem lens_rent : (E.lens f).rent = E.rent := rfl
theorem lens_inCpi : (E.lens f).inCpi = E.inCpi := rfl

theorem lens_origLen (h : k ∈ S) : (E.lens f).origLen k = E.origLen k := SameLen.same (f := f) (E := E) k h

theorem merge_get (h : k ∈ S) : merge L S M k = L k := by simp [merge, h]

theorem merge_set (h : k ∈ S) (a : Account) : (merge L S M).set k a = merge (L.set k a) S M := by
  funext x
  unfold Ledger.set merge
  by_cases hx : x = k
  · subst hx; simp [h]
  · simp [hx]

theorem merge_setData (h : k ∈ S) (d : Bytes) :
    (merge L S M).setData k d = merge (L.setData k d) S M := by
  unfold Ledger.setData; rw [merge_set h, merge_get h]

theorem merge_setLamports (h : k ∈ S) (n : Nat) :
    (merge L S M).setLamports k n = merge (L.setLamports k n) S M := by
  unfold Ledger.setLamports; rw [merge_set h, merge_get h]

/-- Merge the ledger an instruction leaves. -/
def mergeR (r : Except Err Ledger) (S : List Key) (M : Ledger) : Except Err Ledger :=
  match r with
  | .ok L => .ok (merge L S M)
  | .error e => .error e

@[simp] theorem mergeR_ok : mergeR (.ok L) S M = .ok (merge L S M) := rfl
@[simp] theorem mergeR_pure : mergeR (pure L) S M = .ok (merge L S M) := rfl
@[simp] theorem mergeR_error {e : Err} : mergeR (.error e) S M = .error e := rfl

theorem mergeR_bind {α : Type} (x : Except Err α) (f : α → Except Err Ledger) :
    mergeR (x >>= f) S M = (x >>= fun a => mergeR (f a) S M) := by
  cases x <;> rfl

theorem bind_mergeR {α : Type} (x : Except Err Ledger) (f : Ledger → Except Err α) :
    (mergeR x S M >>= f) = (x >>= fun L => f (merge L S M)) := by
  cases x <;> rfl

theorem mergeR_ite {c : Prop} [Decidable c] (x y : Except Err Ledger) :
    mergeR (if c then x else y) S M = if c then mergeR x S M else mergeR y S M := by
  split <;> rfl

theorem bind_congr' {α β : Type} {x : Except Err α} {f g : α → Except Err β}
    (h : ∀ a, f a = g a) : (x >>= f) = (x >>= g) := by
  have : f = g := funext h
  rw [this]

theorem ite_congr' {α : Type} {c : Prop} [Decidable c] {x x' y y' : α} (hx : c → x = x')
    (hy : ¬ c → y = y') : (if c then x else y) = if c then x' else y' := by
  by_cases h : c
  · rw [if_pos h, if_pos h, hx h]
  · rw [if_neg h, if_neg h, hy h]

theorem loc_systemTransfer (hp : p ∈ S) (hq : q ∈ S) (n : Nat) :
    systemTransfer (E.lens f) (merge L S M) p q n = mergeR (systemTransfer E L p q n) S M := by
  unfold systemTransfer
  simp only [lens_program, lens_signer, lens_writable, lens_rent, lens_inCpi, merge_get hp, merge_get hq, merge_setLamports hp, merge_setLamports hq, mergeR_ite,
    mergeR_ok, mergeR_error]

theorem loc_systemCreate (hp : p ∈ S) (hq : q ∈ S) (n s : Nat) (o : Key) :
    systemCreate (E.lens f) (merge L S M) p q n s o = mergeR (systemCreate E L p q n s o) S M := by
  unfold systemCreate
  simp only [lens_program, lens_signer, lens_writable, lens_rent, lens_inCpi, merge_get hp, merge_get hq, merge_setLamports hp, merge_set hq, mergeR_ite,
    mergeR_ok, mergeR_error]

theorem loc_realloc (hk : k ∈ S) (n : Nat) :
    realloc (E.lens f) (merge L S M) k n = mergeR (realloc E L k n) S M := by
  unfold realloc
  simp only [lens_origLen hk, lens_program, lens_signer, lens_writable, lens_rent, lens_inCpi, merge_get hk, merge_setData hk, mergeR_ite, mergeR_ok, mergeR_error]

theorem loc_resizeRefund (hk : k ∈ S) {o : Option Key} (ho : ∀ x, o = some x → x ∈ S) (n : Nat) :
    resizeRefund (E.lens f) (merge L S M) n k o = mergeR (resizeRefund E L n k o) S M := by
  unfold resizeRefund
  cases o with
  | none => rfl
  | some x =>
    have hx := ho x rfl
    simp only [lens_program, lens_signer, lens_writable, lens_rent, lens_inCpi, merge_get hk, merge_get hx, merge_setLamports hk, merge_setLamports hx, mergeR_ok]

theorem loc_resizeFund (hk : k ∈ S) {o s : Option Key} (ho : ∀ x, o = some x → x ∈ S) (n : Nat) :
    resizeFund (E.lens f) (merge L S M) n k o s = mergeR (resizeFund E L n k o s) S M := by
  unfold resizeFund
  simp only [lens_program, lens_signer, lens_writable, lens_rent, lens_inCpi, merge_get hk, mergeR_bind, mergeR_ite, mergeR_pure]
  refine bind_congr' fun _ => ite_congr' (fun _ => ?_) fun _ => rfl
  cases o with
  | none => rfl
  | some x =>
    cases s with
    | none => rfl
    | some y => simp only [lens_program, lens_signer, lens_writable, lens_rent, lens_inCpi, mergeR_bind, loc_systemTransfer (ho x rfl) hk]; rfl

theorem loc_resize (hk : k ∈ S) {o s : Option Key} (ho : ∀ x, o = some x → x ∈ S) (n : Nat) :
    resize (E.lens f) (merge L S M) n k o s = mergeR (resize E L n k o s) S M := by
  unfold resize resizeLamports
  simp only [lens_program, lens_signer, lens_writable, lens_rent, lens_inCpi, merge_get hk, loc_resizeRefund hk ho, loc_resizeFund hk ho, ← mergeR_ite, bind_mergeR,
    mergeR_bind, loc_realloc hk]

theorem loc_resizeIf (hk : k ∈ S) {o s : Option Key} (ho : ∀ x, o = some x → x ∈ S) (c : Bool)
    (n : Nat) : resizeIf (E.lens f) c (merge L S M) n k o s = mergeR (resizeIf E c L n k o s) S M := by
  unfold resizeIf
  simp only [lens_program, lens_signer, lens_writable, lens_rent, lens_inCpi, loc_resize hk ho, mergeR_ite, mergeR_ok]

theorem loc_closeAccount (hp : p ∈ S) (hq : q ∈ S) :
    closeAccount (merge L S M) p q = mergeR (closeAccount L p q) S M := by
  unfold closeAccount
  simp only [lens_program, lens_signer, lens_writable, lens_rent, lens_inCpi, merge_get hp, merge_get hq, merge_setLamports hq, merge_set hp, mergeR_ite, mergeR_ok,
    mergeR_error]

theorem loc_targetOf (hk : k ∈ S) : targetOf (merge L S M) k = targetOf L k := by
  unfold targetOf; rw [merge_get hk]

theorem loc_processRoyalties (hk : k ∈ S) (hp : p ∈ S) (hq : q ∈ S) (d : Bytes) :
    processRoyalties (E.lens f) (merge L S M) k p q d = processRoyalties E L k p q d := by
  unfold processRoyalties
  simp only [lens_program, lens_signer, lens_writable, lens_rent, lens_inCpi, loc_targetOf hk, loc_targetOf hp, loc_targetOf hq, merge_get hp, merge_get hq]

theorem loc_transferGroupCheck (hk : k ∈ S) (hp : p ∈ S) (hq : q ∈ S) {g : Option Key}
    (hg : ∀ x, g = some x → x ∈ S) (d : Bytes) (b : Bool) :
    transferGroupCheck (E.lens f) (merge L S M) k p q g d b = transferGroupCheck E L k p q g d b := by
  unfold transferGroupCheck
  cases g with
  | none => rfl
  | some x => simp only [lens_program, lens_signer, lens_writable, lens_rent, lens_inCpi, loc_processRoyalties hk hp hq, merge_get (hg x rfl)]

theorem loc_processTransfer (hk : k ∈ S) (hp : p ∈ S) (hq : q ∈ S) {g : Option Key}
    (hg : ∀ x, g = some x → x ∈ S) :
    processTransfer (E.lens f) (merge L S M) k p q g = mergeR (processTransfer E L k p q g) S M := by
  unfold processTransfer
  simp only [lens_program, lens_signer, lens_writable, lens_rent, lens_inCpi, merge_get hk, loc_processRoyalties hk hp hq, loc_transferGroupCheck hk hp hq hg,
    mergeR_bind, mergeR_ite, mergeR_pure, merge_setData hk]
  rfl

theorem loc_processApprove (hk : k ∈ S) (x : DelegateInput) :
    processApprove (E.lens f) (merge L S M) k p q x = mergeR (processApprove E L k p q x) S M := by
  unfold processApprove
  simp only [lens_program, lens_signer, lens_writable, lens_rent, lens_inCpi, merge_get hk, mergeR_bind, mergeR_ite, mergeR_pure, merge_setData hk]
  rfl

theorem loc_processRevoke (hk : k ∈ S) (x : DelegateInput) :
    processRevoke (E.lens f) (merge L S M) k p x = mergeR (processRevoke E L k p x) S M := by
  unfold processRevoke
  cases x <;>
  · simp only [lens_program, lens_signer, lens_writable, lens_rent, lens_inCpi, merge_get hk, mergeR_bind, mergeR_ite, mergeR_pure, merge_setData hk]
    rfl

theorem loc_processLock (hk : k ∈ S) :
    processLock (E.lens f) (merge L S M) k p = mergeR (processLock E L k p) S M := by
  unfold processLock
  simp only [lens_program, lens_signer, lens_writable, lens_rent, lens_inCpi, merge_get hk, mergeR_bind, mergeR_pure, merge_setData hk]
  rfl

theorem loc_processUnlock (hk : k ∈ S) :
    processUnlock (E.lens f) (merge L S M) k p = mergeR (processUnlock E L k p) S M := by
  unfold processUnlock
  simp only [lens_program, lens_signer, lens_writable, lens_rent, lens_inCpi, merge_get hk, mergeR_bind, mergeR_pure, merge_setData hk]
  rfl

theorem loc_burnGroup {g : Option Key} (hg : ∀ x, g = some x → x ∈ S) (d : Bytes) :
    burnGroup (merge L S M) k g d = mergeR (burnGroup L k g d) S M := by
  unfold burnGroup
  cases nullable (hGroup d) with
  | none => rfl
  | some a =>
    cases g with
    | none => rfl
    | some x =>
      simp only [lens_program, lens_signer, lens_writable, lens_rent, lens_inCpi, merge_get (hg x rfl), merge_setData (hg x rfl), mergeR_bind]
      refine bind_congr' fun _ => bind_congr' fun _ => bind_congr' fun y => ?_
      cases y with
      | none => rfl
      | some z => simp only [lens_program, lens_signer, lens_writable, lens_rent, lens_inCpi, mergeR_bind, mergeR_pure]; rfl

theorem loc_processBurn (hk : k ∈ S) (hp : p ∈ S) {r g : Option Key}
    (hr : ∀ x, r = some x → x ∈ S) (hg : ∀ x, g = some x → x ∈ S) :
    processBurn (E.lens f) (merge L S M) k p r g = mergeR (processBurn E L k p r g) S M := by
  have hq : r.getD p ∈ S := by
    cases r with
    | none => exact hp
    | some x => exact hr x rfl
  unfold processBurn
  simp only [lens_program, lens_signer, lens_writable, lens_rent, lens_inCpi, merge_get hk, mergeR_bind, loc_burnGroup hg, bind_mergeR, loc_closeAccount hk hq]
  refine bind_congr' fun _ => bind_congr' fun _ => bind_congr' fun _ => bind_congr' fun _ =>
    bind_congr' fun _ => bind_congr' fun _ => bind_congr' fun y => ?_
  cases y with
  | none => rfl
  | some z => simp only [lens_program, lens_signer, lens_writable, lens_rent, lens_inCpi, mergeR_bind]

theorem loc_processClose (hk : k ∈ S) (hp : p ∈ S) :
    processClose (E.lens f) (merge L S M) k p = mergeR (processClose E L k p) S M := by
  unfold processClose
  simp only [lens_program, lens_signer, lens_writable, lens_rent, lens_inCpi, merge_get hk, mergeR_bind, loc_closeAccount hk hp]
  rfl

theorem loc_processGroup (hk : k ∈ S) (hp : p ∈ S) :
    processGroup (E.lens f) (merge L S M) k p q = mergeR (processGroup E L k p q) S M := by
  unfold processGroup
  simp only [lens_program, lens_signer, lens_writable, lens_rent, lens_inCpi, merge_get hk, merge_get hp, mergeR_bind]
  iterate 8 refine bind_congr' fun _ => ?_
  refine bind_congr' fun y => ?_
  cases y with
  | none => rfl
  | some z => simp only [lens_program, lens_signer, lens_writable, lens_rent, lens_inCpi, mergeR_bind, mergeR_pure, merge_setData hk, merge_setData hp]; rfl

theorem loc_processUngroup (hk : k ∈ S) (hp : p ∈ S) :
    processUngroup (E.lens f) (merge L S M) k p q = mergeR (processUngroup E L k p q) S M := by
  unfold processUngroup
  simp only [lens_program, lens_signer, lens_writable, lens_rent, lens_inCpi, merge_get hk, merge_get hp, mergeR_bind]
  iterate 7 refine bind_congr' fun _ => ?_
  refine bind_congr' fun y => ?_
  cases y with
  | none => rfl
  | some z => simp only [lens_program, lens_signer, lens_writable, lens_rent, lens_inCpi, mergeR_bind, mergeR_pure, merge_setData hk, merge_setData hp]; rfl

theorem loc_processHandover (hk : k ∈ S) :
    processHandover (E.lens f) (merge L S M) k p q = mergeR (processHandover E L k p q) S M := by
  unfold processHandover
  simp only [lens_program, lens_signer, lens_writable, lens_rent, lens_inCpi, merge_get hk, mergeR_bind, mergeR_pure, merge_setData hk]
  rfl

theorem loc_processSetVerified (hk : k ∈ S) (b : Bool) :
    processSetVerified (E.lens f) (merge L S M) k p b = mergeR (processSetVerified E L k p b) S M := by
  unfold processSetVerified
  simp only [lens_program, lens_signer, lens_writable, lens_rent, lens_inCpi, merge_get hk, mergeR_bind]
  iterate 3 refine bind_congr' fun _ => ?_
  refine bind_congr' fun y => ?_
  cases y with
  | none => rfl
  | some z => simp only [lens_program, lens_signer, lens_writable, lens_rent, lens_inCpi, mergeR_bind, mergeR_pure, merge_setData hk]; rfl

/-! ## The second half -/

theorem loc_createAccount (hk : k ∈ S) {o s : Option Key} (ho : ∀ x, o = some x → x ∈ S) (n : Nat) :
    createAccount (E.lens f) (merge L S M) k o s n = mergeR (createAccount E L k o s n) S M := by
  unfold createAccount
  cases o with
  | none => rfl
  | some x =>
    simp only [lens_program, lens_signer, lens_writable, lens_rent, lens_inCpi, mergeR_bind]
    refine bind_congr' fun _ => ?_
    cases s with
    | none => rfl
    | some y => simp only [lens_program, lens_signer, lens_writable, lens_rent, lens_inCpi, mergeR_bind, loc_systemCreate (ho x rfl) hk]

theorem loc_allocateOffset (hk : k ∈ S) (t : ExtType) :
    allocateOffset (E.lens f) (merge L S M) k t = allocateOffset E L k t := by
  unfold allocateOffset
  simp only [lens_program, lens_signer, lens_writable, lens_rent, lens_inCpi, merge_get hk]

theorem loc_allocateSpace (hk : k ∈ S) {o s : Option Key} (ho : ∀ x, o = some x → x ∈ S)
    (len : UInt32) (b : Bool) (n : Nat) (d : Bytes) :
    allocateSpace (E.lens f) (merge L S M) k o s len b n d = mergeR (allocateSpace E L k o s len b n d) S M := by
  unfold allocateSpace
  simp only [lens_program, lens_signer, lens_writable, lens_rent, lens_inCpi, merge_get hk, loc_createAccount hk ho, loc_resize hk ho, mergeR_ite, mergeR_ok]

theorem loc_saveExtensionData (hk : k ∈ S) {o s : Option Key} (ho : ∀ x, o = some x → x ∈ S)
    (x : ExtInput) (b : Bool) (n : Nat) (d : Bytes) :
    saveExtensionData (E.lens f) (merge L S M) k o s x b n d =
      mergeR (saveExtensionData E L k o s x b n d) S M := by
  unfold saveExtensionData
  simp only [lens_program, lens_signer, lens_writable, lens_rent, lens_inCpi, loc_allocateSpace hk ho, bind_mergeR, mergeR_bind, merge_get hk, merge_setData hk,
    mergeR_pure]
  rfl

theorem loc_processAllocate (hk : k ∈ S) {o s : Option Key} (ho : ∀ x, o = some x → x ∈ S)
    (x : ExtInput) :
    processAllocate (E.lens f) (merge L S M) k o s x = mergeR (processAllocate E L k o s x) S M := by
  unfold processAllocate
  simp only [lens_program, lens_signer, lens_writable, lens_rent, lens_inCpi, loc_allocateOffset hk, mergeR_bind]
  refine bind_congr' fun _ => bind_congr' fun y => ?_
  cases x.data with
  | none => simp only [lens_program, lens_signer, lens_writable, lens_rent, lens_inCpi, loc_saveExtensionData hk ho]
  | some d => simp only [lens_program, lens_signer, lens_writable, lens_rent, lens_inCpi, loc_saveExtensionData hk ho, mergeR_bind]

theorem loc_processWrite (hk : k ∈ S) (hp : p ∈ S) (x : WriteInput) :
    processWrite (E.lens f) (merge L S M) k p q x = mergeR (processWrite E L k p q x) S M := by
  have ho : ∀ y, some p = some y → y ∈ S := by intro y hy; cases hy; exact hp
  unfold processWrite
  simp only [lens_program, lens_signer, lens_writable, lens_rent, lens_inCpi, merge_get hk, mergeR_bind]
  iterate 6 refine bind_congr' fun _ => ?_
  refine bind_congr' fun y => ?_
  cases y with
  | none => rfl
  | some z =>
    simp only [lens_program, lens_signer, lens_writable, lens_rent, lens_inCpi, loc_resize hk ho, bind_mergeR, mergeR_bind, merge_get hk, merge_setData hk,
      mergeR_ite, mergeR_pure]
    rfl

theorem loc_allocateAll (hk : k ∈ S) {o s : Option Key} (ho : ∀ x, o = some x → x ∈ S)
    (xs : List ExtInput) :
    ∀ L, allocateAll (E.lens f) k o s xs (merge L S M) = mergeR (allocateAll E k o s xs L) S M := by
  induction xs with
  | nil => intro L; rfl
  | cons x xs ih =>
    intro L
    unfold allocateAll
    simp only [lens_program, lens_signer, lens_writable, lens_rent, lens_inCpi, loc_processAllocate hk ho, bind_mergeR, mergeR_bind, ih]

theorem loc_createPrepare (hk : k ∈ S) {o s : Option Key} (ho : ∀ x, o = some x → x ∈ S)
    (x : CreateInput) :
    createPrepare (E.lens f) (merge L S M) k o s x = mergeR (createPrepare E L k o s x) S M := by
  unfold createPrepare
  simp only [lens_program, lens_signer, lens_writable, lens_rent, lens_inCpi, merge_get hk, loc_createAccount hk ho, mergeR_ite, mergeR_bind, mergeR_pure]
  rfl

theorem loc_processCreate (hk : k ∈ S) {g ga o s : Option Key} (hg : ∀ x, g = some x → x ∈ S)
    (ho : ∀ x, o = some x → x ∈ S) (x : CreateInput) :
    processCreate (E.lens f) (merge L S M) k p q g ga o s x =
      mergeR (processCreate E L k p q g ga o s x) S M := by
  unfold processCreate
  simp only [lens_program, lens_signer, lens_writable, lens_rent, lens_inCpi, loc_createPrepare hk ho, bind_mergeR, mergeR_bind, loc_allocateAll hk ho, merge_get hk]
  iterate 5 refine bind_congr' fun _ => ?_
  simp only [lens_program, lens_signer, lens_writable, lens_rent, lens_inCpi, merge_setData hk]
  refine bind_congr' fun _ => bind_congr' fun _ => ?_
  cases g with
  | none => rfl
  | some y => simp only [lens_program, lens_signer, lens_writable, lens_rent, lens_inCpi, loc_processGroup hk (hg y rfl)]

theorem loc_updateMove (hk : k ∈ S) {o s : Option Key} (ho : ∀ x, o = some x → x ∈ S)
    (c : Option (Nat × Nat)) (n u : Nat) (t : Int) :
    updateMove (E.lens f) (merge L S M) k o s c n u t = mergeR (updateMove E L k o s c n u t) S M := by
  unfold updateMove
  cases c with
  | none => simp only [lens_program, lens_signer, lens_writable, lens_rent, lens_inCpi, loc_resize hk ho]
  | some c =>
    obtain ⟨a, b⟩ := c
    simp only [lens_program, lens_signer, lens_writable, lens_rent, lens_inCpi, merge_get hk, mergeR_bind, mergeR_ite, mergeR_ok]
    refine ite_congr' (fun _ => rfl) fun _ => bind_congr' fun y => ?_
    cases y with
    | none => rfl
    | some z =>
      simp only [lens_program, lens_signer, lens_writable, lens_rent, lens_inCpi, loc_resizeIf hk ho, bind_mergeR, mergeR_bind, merge_get hk, merge_setData hk]

theorem loc_updateFinish (hk : k ∈ S) {o s : Option Key} (ho : ∀ x, o = some x → x ∈ S)
    (t : ExtType) (n : Nat) (c : Option (Nat × Nat)) (d : Bytes) :
    updateFinish (E.lens f) (merge L S M) k o s t n c d = mergeR (updateFinish E L k o s t n c d) S M := by
  unfold updateFinish
  simp only [lens_program, lens_signer, lens_writable, lens_rent, lens_inCpi, loc_updateMove hk ho, bind_mergeR, mergeR_bind, merge_get hk, merge_setData hk,
    mergeR_pure]
  rfl

theorem loc_updateArgs (hk : k ∈ S) {o s : Option Key} (ho : ∀ x, o = some x → x ∈ S)
    (x : ExtInput) :
    updateArgs (E.lens f) (merge L S M) k p o s x = mergeR (updateArgs E L k p o s x) S M := by
  unfold updateArgs
  simp only [lens_program, lens_signer, lens_writable, lens_rent, lens_inCpi, loc_updateFinish hk ho, mergeR_bind, merge_get hk]

theorem loc_updateBuffer (hk : k ∈ S) (hq : q ∈ S) {o s : Option Key}
    (ho : ∀ x, o = some x → x ∈ S) :
    updateBuffer (E.lens f) (merge L S M) k p q o s = mergeR (updateBuffer E L k p q o s) S M := by
  unfold updateBuffer
  simp only [lens_program, lens_signer, lens_writable, lens_rent, lens_inCpi, merge_get hk, merge_get hq, mergeR_bind]
  iterate 4 refine bind_congr' fun _ => ?_
  cases firstExtension (L q).data with
  | none => rfl
  | some z =>
    simp only [lens_program]
    cases ExtType.ofU32 z.1.ty with
    | none => rfl
    | some t => simp only [lens_program, lens_signer, lens_writable, lens_rent, lens_inCpi, mergeR_bind, merge_setData hq, loc_updateFinish hk ho]

theorem loc_processUpdate (hk : k ∈ S) {b o s : Option Key} (hb : ∀ x, b = some x → x ∈ S)
    (ho : ∀ x, o = some x → x ∈ S) (x : UpdateInput) :
    processUpdate (E.lens f) (merge L S M) k p b o s x = mergeR (processUpdate E L k p b o s x) S M := by
  unfold processUpdate
  simp only [lens_program, lens_signer, lens_writable, lens_rent, lens_inCpi, merge_get hk, mergeR_bind, merge_setData hk]
  iterate 5 refine bind_congr' fun _ => ?_
  cases x.extension <;> cases b
  · rfl
  · rename_i y; simp only [lens_program, lens_signer, lens_writable, lens_rent, lens_inCpi, loc_updateBuffer hk (hb y rfl) ho]
  · simp only [lens_program, lens_signer, lens_writable, lens_rent, lens_inCpi, loc_updateArgs hk ho]
  · rfl

theorem loc_processRemove (hk : k ∈ S) (hq : q ∈ S) (t : ExtType) :
    processRemove (E.lens f) (merge L S M) k p q t = mergeR (processRemove E L k p q t) S M := by
  have ho : ∀ y, some q = some y → y ∈ S := by intro y hy; cases hy; exact hq
  unfold processRemove
  simp only [lens_program, lens_signer, lens_writable, lens_rent, lens_inCpi, merge_get hk, mergeR_bind]
  iterate 5 refine bind_congr' fun _ => ?_
  refine bind_congr' fun y => ?_
  cases y with
  | none => rfl
  | some z => simp only [lens_program, lens_signer, lens_writable, lens_rent, lens_inCpi, mergeR_bind, merge_setData hk, loc_resize hk ho]

theorem loc_processResize (hk : k ∈ S) (hq : q ∈ S) (s : Option Key) (x : Strategy) :
    processResize (E.lens f) (merge L S M) k p q s x = mergeR (processResize E L k p q s x) S M := by
  have ho : ∀ y, some q = some y → y ∈ S := by intro y hy; cases hy; exact hq
  unfold processResize
  simp only [lens_program, lens_signer, lens_writable, lens_rent, lens_inCpi, merge_get hk, mergeR_bind, loc_resize hk ho]
  rfl

/-! ## The program -/

theorem loc_optAcc (hk : k ∈ S) : ∀ x, optAcc (E.lens f) k = some x → x ∈ S := by
  intro x hx
  unfold optAcc at hx
  split at hx
  · cases hx
  · cases hx; exact hk

theorem loc_proxiedCheck {ks : List Key} (h : ∀ x ∈ ks, x ∈ S) :
    proxiedCheck (E.lens f) (merge L S M) ks = proxiedCheck E L ks := by
  cases ks with
  | nil => rfl
  | cons x ks => unfold proxiedCheck; simp only [lens_program, lens_signer, lens_writable, lens_rent, lens_inCpi, merge_get (h x (List.mem_cons_self ..))]

theorem loc_lockedScan {ks : List Key} (h : ∀ x ∈ ks, x ∈ S) :
    lockedScan (E.lens f) (merge L S M) ks = lockedScan E L ks := by
  induction ks with
  | nil => rfl
  | cons x ks ih =>
    unfold lockedScan
    simp only [lens_program, lens_signer, lens_writable, lens_rent, lens_inCpi, merge_get (h x (List.mem_cons_self ..)), ih fun y hy => h y (List.mem_cons_of_mem _ hy)]

theorem loc_dispatch {ks : List Key} (h : ∀ x ∈ ks, x ∈ S) (i : Instr) :
    dispatch (E.lens f) (merge L S M) i ks = mergeR (dispatch E L i ks) S M := by
  unfold dispatch
  split
  case h_19 => rfl
  all_goals simp only [List.mem_cons, forall_eq_or_imp] at h
  case h_1 => exact loc_processClose h.1 h.2.1
  case h_2 => exact loc_processBurn h.1 h.2.1 (loc_optAcc h.2.2.1) (loc_optAcc h.2.2.2.1)
  case h_3 => exact loc_processCreate h.1 (loc_optAcc h.2.2.2.1) (loc_optAcc h.2.2.2.2.2.1) _
  case h_4 => exact loc_processApprove h.1 _
  case h_5 => exact loc_processAllocate h.1 (loc_optAcc h.2.1) _
  case h_6 => exact loc_processLock h.1
  case h_7 => exact loc_processRevoke h.1 _
  case h_8 => exact loc_processTransfer h.1 h.2.1 h.2.2.1 (loc_optAcc h.2.2.2.1)
  case h_9 => exact loc_processUnlock h.1
  case h_10 => exact loc_processSetVerified h.1 _
  case h_11 => exact loc_processUpdate h.1 (loc_optAcc h.2.2.1) (loc_optAcc h.2.2.2.2.1) _
  case h_12 => exact loc_processSetVerified h.1 _
  case h_13 => exact loc_processWrite h.1 h.2.1 _
  case h_14 => exact loc_processGroup h.1 h.2.1
  case h_15 => exact loc_processUngroup h.1 h.2.1
  case h_16 => exact loc_processHandover h.1
  case h_17 => exact loc_processRemove h.1 h.2.2.2.1 _
  case h_18 => exact loc_processResize h.1 h.2.2.1 _ _

theorem loc_execute {ks : List Key} (h : ∀ x ∈ ks, x ∈ S) (i : Instr) :
    execute (E.lens f) (merge L S M) ks i = mergeR (execute E L ks i) S M := by
  have h7 : ∀ x ∈ ks.take 7, x ∈ S := fun x hx => h x (List.mem_of_mem_take hx)
  unfold execute processInstr
  simp only [lens_program, lens_signer, lens_writable, lens_rent, lens_inCpi, loc_proxiedCheck h7, loc_lockedScan h7, loc_dispatch h7, mergeR_bind, bind_assoc,
    bind_mergeR]
  iterate 4 refine bind_congr' fun _ => ?_
  rename_i L'
  have e : (ks.all fun k => changeAllowed (E.lens f) k (merge L S M k) (merge L' S M k)) =
      ks.all fun k => changeAllowed E k (L k) (L' k) := by
    rw [Bool.eq_iff_iff, List.all_eq_true, List.all_eq_true]
    constructor <;> intro g x hx
    · have := g x hx; rwa [merge_get (h x hx), merge_get (h x hx)] at this
    · rw [merge_get (h x hx), merge_get (h x hx)]; exact g x hx
  rw [e, mergeR_ite]
  rfl

end Verif
