import Verif.Spec.Errors
import Verif.Lemmas.Accepts
import Verif.Lemmas.CreateStores
import Verif.Lemmas.InBounds

/-!
# Where the errors of the program come from

`Blames P r`: if the computation ends with an error of the program, it is one of those in `P`.
`Clean r`: it does not end with such an error.
-/

namespace Verif

open Verif.Spec

variable {α β : Type} {P : AssetError → Prop}

/-- The errors of the program are among `P`. -/
def Blames (P : AssetError → Prop) (r : Except Err α) : Prop := ∀ e, r = .error (.asset e) → P e

/-- No error of the program. -/
def Clean (r : Except Err α) : Prop := ∀ e, r ≠ .error (.asset e)

theorem Clean.blames {r : Except Err α} (h : Clean r) : Blames P r := fun e he => absurd he (h e)

theorem blames_bind {x : Except Err α} {f : α → Except Err β} (hx : Blames P x)
    (hf : ∀ a, x = .ok a → Blames P (f a)) : Blames P (x >>= f) := by
  cases x with
  | error e => exact fun e' h => hx e' (congrArg Except.error (Except.error.inj h))
  | ok a => exact hf a rfl

theorem blames_ok (a : α) : Blames P (.ok a : Except Err α) := fun _ h => by cases h

theorem blames_pure (a : α) : Blames P (pure a : Except Err α) := fun _ h => by cases h

theorem blames_asset {e : AssetError} (h : P e) : Blames P (.error (.asset e) : Except Err α) :=
  fun e' he => by cases he; exact h

theorem blames_error {e : Err} (h : ∀ x, e ≠ .asset x) : Blames P (.error e : Except Err α) :=
  fun e' he => absurd (Except.error.inj he) (h e')

theorem blames_require {c : Prop} [Decidable c] {e : AssetError} (h : ¬ c → P e) :
    Blames P (require c (.asset e)) := by
  unfold require
  split
  · exact blames_ok _
  · rename_i hc; exact blames_asset (h hc)

theorem blames_require' {c : Prop} [Decidable c] {e : Err} (h : ∀ x, e ≠ .asset x) :
    Blames P (require c e) := by
  unfold require
  split
  · exact blames_ok _
  · exact blames_error h

theorem clean_ok (a : α) : Clean (.ok a : Except Err α) := fun _ h => by cases h

theorem clean_pure (a : α) : Clean (pure a : Except Err α) := fun _ h => by cases h

theorem clean_error {e : Err} (h : ∀ x, e ≠ .asset x) : Clean (.error e : Except Err α) :=
  fun e' he => h e' (Except.error.inj he)

theorem clean_bind {x : Except Err α} {f : α → Except Err β} (hx : Clean x)
    (hf : ∀ a, x = .ok a → Clean (f a)) : Clean (x >>= f) := by
  cases x with
  | error e => exact fun e' h => hx e' (congrArg Except.error (Except.error.inj h))
  | ok a => exact hf a rfl

theorem clean_require {c : Prop} [Decidable c] {e : Err} (h : ∀ x, e ≠ .asset x) :
    Clean (require c e) := by
  unfold require
  split
  · exact clean_ok _
  · exact clean_error h

/-- One step of the analysis. -/
syntax "tidy1" : tactic
macro_rules | `(tactic| tidy1) => `(tactic| split)
macro_rules | `(tactic| tidy1) => `(tactic| refine clean_bind ?_ (fun _ _ => ?_))
macro_rules | `(tactic| tidy1) => `(tactic| exact clean_error (by simp))
macro_rules | `(tactic| tidy1) => `(tactic| exact clean_require (by simp))
macro_rules | `(tactic| tidy1) => `(tactic| with_reducible exact clean_pure _)
macro_rules | `(tactic| tidy1) => `(tactic| with_reducible exact clean_ok _)
macro_rules | `(tactic| tidy1) => `(tactic| assumption)

/-- Opens up a `do` block. -/
macro "tidy" : tactic => `(tactic| repeat' tidy1)

/-! ## Readers -/

theorem clean_findFrom (t : ExtType) (d : Bytes) (n c : Nat) : Clean (findFrom t d n c) := by
  induction n generalizing c with
  | zero => exact clean_error (by simp)
  | succ n ih => unfold findFrom; simp only; tidy; exact ih _
macro_rules | `(tactic| tidy1) => `(tactic| with_reducible exact clean_findFrom _ _ _ _)

theorem clean_payloadAt (d : Bytes) (c : Nat) : Clean (payloadAt d c) := by
  unfold payloadAt; simp only; tidy
macro_rules | `(tactic| tidy1) => `(tactic| with_reducible exact clean_payloadAt _ _)

theorem clean_assetContains (t : ExtType) (d : Bytes) : Clean (assetContains t d) := by
  unfold assetContains find; tidy
macro_rules | `(tactic| tidy1) => `(tactic| with_reducible exact clean_assetContains _ _)

theorem clean_assetGet (t : ExtType) (d : Bytes) : Clean (assetGet t d) := by
  unfold assetGet find; tidy
macro_rules | `(tactic| tidy1) => `(tactic| with_reducible exact clean_assetGet _ _)

theorem clean_assetGetMut (t : ExtType) (d : Bytes) : Clean (assetGetMut t d) := by
  unfold assetGetMut find; tidy
macro_rules | `(tactic| tidy1) => `(tactic| with_reducible exact clean_assetGetMut _ _)

theorem clean_lastFrom (d : Bytes) (n c : Nat) (l : Option (Hdr × Nat)) : Clean (lastFrom d n c l) := by
  induction n generalizing c l with
  | zero => exact clean_error (by simp)
  | succ n ih => unfold lastFrom; simp only; tidy; exact ih _ _

theorem clean_lastExtension (d : Bytes) : Clean (lastExtension d) := clean_lastFrom _ _ _ _
macro_rules | `(tactic| tidy1) => `(tactic| with_reducible exact clean_lastExtension _)

theorem clean_extFindFrom (t : ExtType) (d : Bytes) (n c : Nat) : Clean (extFindFrom t d n c) := by
  induction n generalizing c with
  | zero => exact clean_error (by simp)
  | succ n ih => unfold extFindFrom; simp only; tidy; exact ih _
macro_rules | `(tactic| tidy1) => `(tactic| with_reducible exact clean_extFindFrom _ _ _ _)

theorem clean_extGet (t : ExtType) (d : Bytes) : Clean (extGet t d) := by unfold extGet; tidy
macro_rules | `(tactic| tidy1) => `(tactic| with_reducible exact clean_extGet _ _)

theorem clean_readStr (b : Bytes) : Clean (readStr b) := by unfold readStr; tidy
macro_rules | `(tactic| tidy1) => `(tactic| with_reducible exact clean_readStr _)

theorem clean_readPairs (n : Nat) (b : Bytes) : Clean (readPairs n b) := by
  induction n generalizing b with
  | zero => exact clean_error (by simp)
  | succ n ih => unfold readPairs; tidy; exact ih _
macro_rules | `(tactic| tidy1) => `(tactic| with_reducible exact clean_readPairs _ _)

theorem clean_readPropValue (b : Bytes) : Clean (readPropValue b) := by unfold readPropValue; tidy
macro_rules | `(tactic| tidy1) => `(tactic| with_reducible exact clean_readPropValue _)

theorem clean_readProps (n : Nat) (b : Bytes) : Clean (readProps n b) := by
  induction n generalizing b with
  | zero => exact clean_error (by simp)
  | succ n ih => unfold readProps; tidy; exact ih _
macro_rules | `(tactic| tidy1) => `(tactic| with_reducible exact clean_readProps _ _)

theorem clean_readGrouping (b : Bytes) : Clean (readGrouping b) := by unfold readGrouping; tidy
macro_rules | `(tactic| tidy1) => `(tactic| with_reducible exact clean_readGrouping _)

theorem clean_readManager (b : Bytes) : Clean (readManager b) := by unfold readManager; tidy
macro_rules | `(tactic| tidy1) => `(tactic| with_reducible exact clean_readManager _)

theorem clean_readProxy (b : Bytes) : Clean (readProxy b) := by unfold readProxy; tidy
macro_rules | `(tactic| tidy1) => `(tactic| with_reducible exact clean_readProxy _)

theorem clean_readCreators (b : Bytes) : Clean (readCreators b) := by unfold readCreators; tidy
macro_rules | `(tactic| tidy1) => `(tactic| with_reducible exact clean_readCreators _)

theorem clean_readBlob (b : Bytes) : Clean (readBlob b) := by unfold readBlob; tidy
macro_rules | `(tactic| tidy1) => `(tactic| with_reducible exact clean_readBlob _)

theorem clean_readBucket (b : Bytes) : Clean (readBucket b) := by unfold readBucket; tidy
macro_rules | `(tactic| tidy1) => `(tactic| with_reducible exact clean_readBucket _)

theorem clean_readMetadata (b : Bytes) : Clean (readMetadata b) := by
  unfold readMetadata; tidy
  simp only; tidy
macro_rules | `(tactic| tidy1) => `(tactic| with_reducible exact clean_readMetadata _)

theorem clean_parseKeys (b : Bytes) : Clean (parseKeys b) := by unfold parseKeys; tidy
macro_rules | `(tactic| tidy1) => `(tactic| with_reducible exact clean_parseKeys _)

theorem clean_parse (n : Nat) : (∀ b, Clean (parseC n b)) ∧ ∀ b, Clean (parseL n b) := by
  induction n with
  | zero =>
    exact ⟨fun b => by unfold parseC; exact clean_error (by simp),
      fun b => by unfold parseL; exact clean_error (by simp)⟩
  | succ n ih =>
    obtain ⟨h1, h2⟩ := ih
    refine ⟨fun b => ?_, fun b => ?_⟩
    · unfold parseC; simp only; tidy <;> first | exact h1 _ | exact h2 _
    · unfold parseL; tidy <;> first | exact h1 _ | exact h2 _

theorem clean_parseConstraint (b : Bytes) : Clean (parseConstraint b) := by
  unfold parseConstraint; tidy; exact (clean_parse _).1 _
macro_rules | `(tactic| tidy1) => `(tactic| with_reducible exact clean_parseConstraint _)

theorem clean_readRoyalties (b : Bytes) : Clean (readRoyalties b) := by unfold readRoyalties; tidy
macro_rules | `(tactic| tidy1) => `(tactic| with_reducible exact clean_readRoyalties _)

theorem clean_evalC (ctx : CCtx) (c : Cst) : Clean (evalC ctx c) := by
  intro e h
  rcases evalC_err ctx c _ h with h | h <;> cases h
macro_rules | `(tactic| tidy1) => `(tactic| with_reducible exact clean_evalC _ _)

theorem clean_managerOf (d : Bytes) : Clean (managerOf d) := by unfold managerOf; tidy
macro_rules | `(tactic| tidy1) => `(tactic| with_reducible exact clean_managerOf _)

theorem clean_keepVerified (a b : List Creator) : Clean (creatorsKeepVerified a b) := by
  induction a with
  | nil => exact clean_ok _
  | cons c a ih => unfold creatorsKeepVerified; tidy
macro_rules | `(tactic| tidy1) => `(tactic| with_reducible exact clean_keepVerified _ _)

theorem clean_onCreate (t : ExtType) (b : Bytes) (a : Option Key) : Clean (onCreate t b a) := by
  unfold onCreate readPairList readPropList groupingOnCreate royaltiesCheck creatorsOnCreate
  simp only; tidy
macro_rules | `(tactic| tidy1) => `(tactic| with_reducible exact clean_onCreate _ _ _)

theorem clean_onUpdate (t : ExtType) (o b : Bytes) (a : Option Key) : Clean (onUpdate t o b a) := by
  unfold onUpdate readPairList readPropList groupingOnUpdate royaltiesCheck creatorsOnUpdate proxyOnUpdate
  simp only; tidy
macro_rules | `(tactic| tidy1) => `(tactic| with_reducible exact clean_onUpdate _ _ _ _)


/-! ## The runtime -/


section
variable {E : Env} {L : Ledger} {k : Key} {payer sys : Option Key} {n : Nat}


theorem clean_transfer {s d : Key} : Clean (systemTransfer E L s d n) := by
  unfold systemTransfer; simp only; tidy
macro_rules | `(tactic| tidy1) => `(tactic| with_reducible exact clean_transfer)

theorem clean_resize : Clean (resize E L n k payer sys) := by
  unfold resize resizeLamports resizeRefund resizeFund realloc; simp only; tidy
macro_rules | `(tactic| tidy1) => `(tactic| with_reducible exact clean_resize)

theorem clean_resizeIf {c : Bool} : Clean (resizeIf E c L n k payer sys) := by
  unfold resizeIf; tidy
macro_rules | `(tactic| tidy1) => `(tactic| with_reducible exact clean_resizeIf)

theorem clean_createAccount : Clean (createAccount E L k payer sys n) := by
  unfold createAccount systemCreate; simp only; tidy
macro_rules | `(tactic| tidy1) => `(tactic| with_reducible exact clean_createAccount)

theorem clean_closeAccount {r : Key} : Clean (closeAccount L k r) := by
  unfold closeAccount; simp only; tidy
macro_rules | `(tactic| tidy1) => `(tactic| with_reducible exact clean_closeAccount)

theorem clean_writeHdr {d : Bytes} {o a b c : Nat} : Clean (writeHdr d o a b c) := by
  unfold writeHdr; tidy
macro_rules | `(tactic| tidy1) => `(tactic| with_reducible exact clean_writeHdr)

theorem clean_memcpy {d bs : Bytes} {o : Nat} : Clean (memcpy d o bs) := by unfold memcpy; tidy
macro_rules | `(tactic| tidy1) => `(tactic| with_reducible exact clean_memcpy)

theorem clean_memmove {d : Bytes} {a b c : Nat} : Clean (memmove d a b c) := by unfold memmove; tidy
macro_rules | `(tactic| tidy1) => `(tactic| with_reducible exact clean_memmove)

theorem clean_copyData {d bs : Bytes} {o : Nat} : Clean (copyData d o bs) := by unfold copyData; tidy
macro_rules | `(tactic| tidy1) => `(tactic| with_reducible exact clean_copyData)

theorem clean_save {x : ExtInput} {ex : Bool} {o : Nat} {data : Bytes} :
    Clean (saveExtensionData E L k payer sys x ex o data) := by
  unfold saveExtensionData allocateSpace; simp only; tidy
macro_rules | `(tactic| tidy1) => `(tactic| with_reducible exact clean_save)

theorem clean_updateFind (t : ExtType) (d : Bytes) (n c : Nat) : Clean (updateFind t d n c) := by
  induction n generalizing c with
  | zero => exact clean_error (by simp)
  | succ n ih => unfold updateFind; simp only; tidy; exact ih _

theorem clean_removeFind (t : ExtType) (d : Bytes) (n c : Nat) : Clean (removeFind t d n c) := by
  induction n generalizing c with
  | zero => exact clean_error (by simp)
  | succ n ih => unfold removeFind; simp only; tidy; exact ih _

theorem clean_fixBoundaries (delta : Int) (n : Nat) (d : Bytes) (c : Nat) :
    Clean (fixBoundaries delta n d c) := by
  induction n generalizing d c with
  | zero => exact clean_error (by simp)
  | succ n ih => unfold fixBoundaries; simp only; tidy; exact ih _ _

theorem clean_currentPayload {d : Bytes} {o : Nat} {cur : Option (Nat × Nat)} :
    Clean (currentPayload d o cur) := by unfold currentPayload; tidy

theorem clean_resizeTarget {d : Bytes} {s : Strategy} : Clean (resizeTarget d s) := by
  unfold resizeTarget; tidy

theorem clean_ownerOrDelegate {d : Bytes} {s : Key} {r : Role} : Clean (ownerOrDelegate d s r) := by
  unfold ownerOrDelegate; tidy

theorem clean_proxiedCheck {ks : List Key} : Clean (proxiedCheck E L ks) := by
  unfold proxiedCheck; simp only; tidy

theorem clean_lockedScan {ks : List Key} : Clean (lockedScan E L ks) := by
  induction ks with
  | nil => exact clean_ok _
  | cons x xs ih => unfold lockedScan; simp only; tidy

theorem blames_mapLife {r : Except Err α} (hr : Clean r)
    (h : (∀ v, r ≠ .ok v) → P .extensionDataInvalid) : Blames P (mapLife r) := by
  unfold mapLife
  split
  · exact blames_asset (h fun v hv => by cases hv)
  · exact hr.blames

theorem blames_royalties {a s r : Key} {d : Bytes}
    (h : processRoyalties E L a s r d = .error (.asset .assertionFailure) → P .assertionFailure) :
    Blames P (processRoyalties E L a s r d) := by
  have : Blames (· = .assertionFailure) (processRoyalties E L a s r d) := by
    unfold processRoyalties
    refine blames_bind (clean_assetGet _ _).blames fun x _ => ?_
    cases x with
    | none => exact blames_pure _
    | some p =>
      refine blames_bind (clean_readRoyalties _).blames fun r' _ => ?_
      split
      · exact blames_bind (clean_evalC _ _).blames fun _ _ =>
          blames_bind (blames_require fun _ => rfl) fun _ _ => blames_pure _
      · exact blames_pure _
  intro e he
  obtain rfl := this e he
  exact h he

end

end Verif
