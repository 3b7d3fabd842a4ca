import Mathlib.Data.List.Perm.Subperm
import Verif.Spec.Ending
import Verif.Lemmas.WellFormed
import Verif.Lemmas.Properties
import Verif.Lemmas.Constraint
import Verif.Lemmas.InBounds
import Verif.Model.Js

/-!
# Loops that end

`Finishes r`: the computation comes to an end.
-/

namespace Verif

open Verif.Spec

variable {α β : Type}

/-- It ends, with a value or an error. -/
def Finishes (r : Except Err α) : Prop := r ≠ .error .diverge

theorem fin_ok (a : α) : Finishes (.ok a : Except Err α) := by intro h; cases h

theorem fin_pure (a : α) : Finishes (pure a : Except Err α) := by intro h; cases h

theorem fin_error {e : Err} (h : e ≠ .diverge) : Finishes (.error e : Except Err α) := by
  intro hh; exact h (Except.error.inj hh)

theorem fin_bind {x : Except Err α} {f : α → Except Err β} (hx : Finishes x)
    (hf : ∀ a, x = .ok a → Finishes (f a)) : Finishes (x >>= f) := by
  cases x with
  | error e => exact fun h => hx (congrArg Except.error (Except.error.inj h))
  | ok a => exact hf a rfl

theorem fin_require {c : Prop} [Decidable c] {e : Err} (h : e ≠ .diverge) : Finishes (require c e) := by
  unfold require
  split
  · exact fin_ok _
  · exact fin_error h

/-- One step of the analysis. -/
syntax "finish1" : tactic
macro_rules | `(tactic| finish1) => `(tactic| split)
macro_rules | `(tactic| finish1) => `(tactic| with_reducible refine fin_bind ?_ (fun _ _ => ?_))
macro_rules | `(tactic| finish1) => `(tactic| with_reducible exact fin_error (by decide))
macro_rules | `(tactic| finish1) => `(tactic| with_reducible exact fin_require (by decide))
macro_rules | `(tactic| finish1) => `(tactic| with_reducible exact fin_pure _)
macro_rules | `(tactic| finish1) => `(tactic| with_reducible exact fin_ok _)
macro_rules | `(tactic| finish1) => `(tactic| assumption)

/-- Opens up a `do` block. -/
macro "finishing" : tactic => `(tactic| repeat' finish1)

/-! ## How long a walk takes -/

/-- The walk from `c` takes `n` steps. -/
inductive Takes (step : Nat → Option Nat) : Nat → Nat → Prop
  | stop {c : Nat} (h : step c = none) : Takes step 0 c
  | next {n c c' : Nat} (h : step c = some c') (hr : Takes step n c') : Takes step (n + 1) c

section
variable {step : Nat → Option Nat} {n c : Nat}

theorem Takes.unique {m : Nat} (h : Takes step n c) (h' : Takes step m c) : n = m := by
  induction h generalizing m with
  | stop h =>
    cases h' with
    | stop _ => rfl
    | next g _ => rw [h] at g; cases g
  | next h _ ih =>
    cases h' with
    | stop g => rw [h] at g; cases g
    | next g g' => rw [h] at g; cases g; rw [ih g']

/-- The places passed are different ones. -/
theorem Takes.path (h : Takes step n c) : ∃ p : List Nat, p.length = n ∧ p.Nodup ∧
    ∀ x ∈ p, step x ≠ none ∧ ∃ m, m ≤ n ∧ Takes step m x := by
  induction h with
  | stop h => exact ⟨[], rfl, List.nodup_nil, by simp⟩
  | @next n c c' h hr ih =>
    obtain ⟨p, h1, h2, h3⟩ := ih
    refine ⟨c :: p, by simp [h1], List.nodup_cons.mpr ⟨fun hm => ?_, h2⟩, fun x hx => ?_⟩
    · obtain ⟨_, m, hm1, hm2⟩ := h3 c hm
      have := hm2.unique (.next h hr)
      omega
    · rcases List.mem_cons.mp hx with rfl | hx
      · exact ⟨by rw [h]; simp, n + 1, Nat.le_refl _, .next h hr⟩
      · obtain ⟨g1, m, g2, g3⟩ := h3 x hx
        exact ⟨g1, m, by omega, g3⟩

/-- So there are no more of them than there are places. -/
theorem Takes.le {N : Nat} (h : Takes step n c) (hN : ∀ x, step x ≠ none → x < N) : n ≤ N := by
  obtain ⟨p, h1, h2, h3⟩ := h.path
  have := (List.Nodup.subperm h2 (l₂ := List.range N)
    fun x hx => List.mem_range.mpr (hN x (h3 x hx).1)).length_le
  rw [List.length_range] at this
  omega

end

variable {d : Bytes} {off n : Nat}

instance (d : Bytes) (off : Nat) : Decidable (Ends d off) := inferInstanceAs (Decidable (_ ∨ _))

/-- The offset a header leads to. -/
def leads (d : Bytes) (off : Nat) : Option Nat :=
  if Ends d off then none else some (leNat (slice d (off + 8) 4))

/-- The same for offsets that count from the end of the header of the account. -/
def leadsBehind (d : Bytes) (off : Nat) : Option Nat :=
  if Ends d (168 + off) then none
  else if 168 ≤ leNat (slice d (168 + off + 8) 4) then some (leNat (slice d (168 + off + 8) 4) - 168)
  else none

/-- The walk from `off` passes `n` headers. -/
abbrev HaltsIn (d : Bytes) (n off : Nat) : Prop := Takes (leads d) n off

theorem Spec.Halts.bounded (h : Halts d off) : ∃ n, n ≤ d.length ∧ HaltsIn d n off := by
  have : ∃ n, HaltsIn d n off := by
    induction h with
    | stop h => exact ⟨0, .stop (if_pos h)⟩
    | next h _ ih => obtain ⟨n, hn⟩ := ih; exact ⟨n + 1, .next (if_neg h) hn⟩
  obtain ⟨n, hn⟩ := this
  refine ⟨n, hn.le fun x hx => ?_, hn⟩
  by_cases he : Ends d x
  · exact absurd (if_pos he) hx
  · unfold Ends at he; omega

theorem Spec.Halts.behind (h : Halts d off) (ho : 168 ≤ off) :
    ∃ n, n ≤ d.length - 168 ∧ Takes (leadsBehind d) n (off - 168) := by
  have : ∃ n, Takes (leadsBehind d) n (off - 168) := by
    induction h with
    | @stop off h =>
      refine ⟨0, .stop ?_⟩
      unfold leadsBehind
      rw [show 168 + (off - 168) = off by omega, if_pos h]
    | @next off h _ ih =>
      by_cases hb : 168 ≤ leNat (slice d (off + 8) 4)
      · obtain ⟨n, hn⟩ := ih hb
        refine ⟨n + 1, .next ?_ hn⟩
        unfold leadsBehind
        rw [show 168 + (off - 168) = off by omega, if_neg h, if_pos hb]
      · refine ⟨0, .stop ?_⟩
        unfold leadsBehind
        rw [show 168 + (off - 168) = off by omega, if_neg h, if_neg hb]
  obtain ⟨n, hn⟩ := this
  refine ⟨n, hn.le fun x hx => ?_, hn⟩
  by_cases he : Ends d (168 + x)
  · exact absurd (if_pos he) hx
  · unfold Ends at he; omega

theorem Spec.Walk.halts {es : List Extn} {e : Nat} (h : Walk d off es e) (he : Ends d e) : Halts d off := by
  induction h with
  | nil => exact .stop he
  | cons ht h0 h1 h2 hb hp hr ih =>
    have hle := hr.le
    refine .next ?_ (by rw [h2]; exact ih he)
    rintro (g | g)
    · omega
    · rw [h0] at g; exact toU32_ne_zero ht g

theorem Spec.HasExts.halts {es : List Extn} (h : HasExts d es) : Halts d 168 := by
  obtain ⟨e, h1, h2⟩ := h
  exact h1.halts h2

/-- Appending walks. -/
theorem Spec.Walk.halts' {es : List Extn} {e : Nat} (h : Walk d off es e) (he : Halts d e) : Halts d off := by
  induction h with
  | nil => exact he
  | cons ht h0 h1 h2 hb hp hr ih =>
    have hle := hr.le
    refine .next ?_ (by rw [h2]; exact ih he)
    rintro (g | g)
    · omega
    · rw [h0] at g; exact toU32_ne_zero ht g

theorem halts_pending {es : List Extn} {t : ExtType} {p : Bytes} (h : Pending d es t n p) : Halts d 168 := by
  obtain ⟨_, ht, m, h1, h2, h3, h4, h5, h6, h7⟩ := h
  have hru := le_roundUp8 (m + 16 + n)
  refine h1.walk.halts' (.next ?_ (.stop (.inl ?_)))
  · rintro (g | g)
    · omega
    · rw [h2] at g; exact toU32_ne_zero ht g
  · rw [h4]; omega

theorem halts_zero (h : ∀ i, byteAt d i = 0) : Halts d off := .stop (.inr (leNat_slice_zero fun i _ => h i))

theorem Spec.Buffer.halts (h : Buffer d) : Halts d 168 := by
  rcases h with h | ⟨es, h, _⟩ | ⟨es, t, n, p, h, _⟩
  · exact halts_zero h
  · exact h.clean.hasExts.halts
  · exact halts_pending h

theorem Spec.Tidy.halts {program : Key} {L : Ledger} {k : Key} (h : Tidy program L k) :
    Halts (L k).data 168 := by
  obtain ⟨A, hA, _⟩ := h
  exact hA.2.2.2.hasExts.halts

/-! ## The loops -/

theorem leads_none (h : leads d off = none) : Ends d off := by
  unfold leads at h
  split at h
  · assumption
  · cases h

theorem leads_some {c : Nat} (h : leads d off = some c) : ¬ Ends d off ∧ leNat (slice d (off + 8) 4) = c := by
  unfold leads at h
  split at h
  · cases h
  · exact ⟨by assumption, Option.some.inj h⟩

theorem ofU32_zero : ExtType.ofU32 0 = some .none := rfl

/-- A header at `off`. -/
theorem not_ends (h : ¬ Ends d off) : off + extLen ≤ d.length ∧ ExtType.ofU32 (hdrAt d off).ty ≠ some .none ∧
    (hdrAt d off).bnd = leNat (slice d (off + 8) 4) := by
  have e16 : extLen = 16 := rfl
  unfold Ends at h
  refine ⟨by omega, fun g => ?_, rfl⟩
  exact h (.inr (ofU32_none g))

theorem ends_cases (h : Ends d off) : ¬ off + extLen ≤ d.length ∨
    ExtType.ofU32 (hdrAt d off).ty = some .none := by
  have e16 : extLen = 16 := rfl
  rcases h with h | h
  · left; omega
  · right
    show ExtType.ofU32 (leNat (slice d off 4)) = _
    rw [h]; rfl

theorem fin_findFrom {t : ExtType} (h : HaltsIn d n off) : ∀ f, n < f → Finishes (findFrom t d f off) := by
  induction h with
  | stop h =>
    replace h := leads_none h
    intro f hf
    obtain ⟨f, rfl⟩ : ∃ g, f = g + 1 := ⟨f - 1, by omega⟩
    unfold findFrom
    rcases ends_cases h with h | h
    · rw [if_neg h]; exact fin_ok _
    · simp only [h]; finishing
      rename_i hc; exact absurd trivial hc
  | next h _ ih =>
    obtain ⟨h, rfl⟩ := leads_some h
    intro f hf
    obtain ⟨f, rfl⟩ : ∃ g, f = g + 1 := ⟨f - 1, by omega⟩
    unfold findFrom
    simp only; finishing
    exact ih f (by omega)

theorem fin_find {t : ExtType} (h : Halts d 168) : Finishes (find t d) := by
  obtain ⟨n, h1, h2⟩ := h.bounded
  exact fin_findFrom h2 _ (by omega)

theorem fin_extensionsFrom (h : HaltsIn d n off) : ∀ f, n < f → Finishes (extensionsFrom d f off) := by
  induction h with
  | stop h =>
    replace h := leads_none h
    intro f hf
    obtain ⟨f, rfl⟩ : ∃ g, f = g + 1 := ⟨f - 1, by omega⟩
    unfold extensionsFrom
    rcases ends_cases h with h | h
    · rw [if_neg h]; exact fin_ok _
    · simp only [h]; finishing
  | next h _ ih =>
    obtain ⟨h, rfl⟩ := leads_some h
    intro f hf
    obtain ⟨f, rfl⟩ : ∃ g, f = g + 1 := ⟨f - 1, by omega⟩
    unfold extensionsFrom
    simp only; finishing
    all_goals exact ih f (by omega)

theorem fin_getExtensions (h : Halts d 168) : Finishes (getExtensions d) := by
  obtain ⟨n, h1, h2⟩ := h.bounded
  exact fin_extensionsFrom h2 _ (by omega)

/-- The walk of `get_extensions` is the plain one: it does not end unless the headers do. -/
theorem halts_extensionsFrom {f : Nat} (h : Finishes (extensionsFrom d f off)) : Halts d off := by
  induction f generalizing off with
  | zero => exact absurd rfl h
  | succ f ih =>
    by_cases he : Ends d off
    · exact .stop he
    · obtain ⟨g1, g2, g3⟩ := not_ends he
      refine .next he (ih fun hd => h ?_)
      rw [← g3] at hd
      unfold extensionsFrom
      rw [if_pos g1]
      simp only
      split
      · rename_i heq; exact absurd heq g2
      · rw [hd]; rfl
      · exact hd

theorem fin_lastFrom (h : HaltsIn d n off) : ∀ f l, n < f → Finishes (lastFrom d f off l) := by
  induction h with
  | stop h =>
    replace h := leads_none h
    intro f l hf
    obtain ⟨f, rfl⟩ : ∃ g, f = g + 1 := ⟨f - 1, by omega⟩
    unfold lastFrom
    rcases ends_cases h with h | h
    · rw [if_neg h]; exact fin_ok _
    · simp only [h]; finishing
  | next h _ ih =>
    obtain ⟨h, rfl⟩ := leads_some h
    intro f l hf
    obtain ⟨f, rfl⟩ : ∃ g, f = g + 1 := ⟨f - 1, by omega⟩
    unfold lastFrom
    simp only; finishing
    exact ih f _ (by omega)

theorem fin_lastExtension (h : Halts d 168) : Finishes (lastExtension d) := by
  obtain ⟨n, h1, h2⟩ := h.bounded
  exact fin_lastFrom h2 _ _ (by omega)

theorem hdrAt_behind (d : Bytes) (b off : Nat) : hdrAt (d.drop b) off = hdrAt d (b + off) := by
  unfold hdrAt u32At slice
  simp only [List.drop_drop, Nat.add_assoc]

theorem fin_extFindFrom {t : ExtType} (h : Takes (leadsBehind d) n off) :
    ∀ f, n < f → Finishes (extFindFrom t (d.drop assetLen) f off) := by
  have e16 : extLen = 16 := rfl
  have e168 : assetLen = 168 := rfl
  induction h with
  | @stop off h =>
    intro f hf
    obtain ⟨f, rfl⟩ : ∃ g, f = g + 1 := ⟨f - 1, by omega⟩
    unfold extFindFrom
    rw [hdrAt_behind, List.length_drop, e168]
    unfold leadsBehind at h
    split at h
    · rename_i he
      rcases ends_cases he with h | h
      · rw [if_neg (by omega)]; exact fin_ok _
      · simp only [h]; finishing
        all_goals (rename_i hc _; exact absurd trivial hc)
    · split at h
      · cases h
      · rename_i hb
        have : ¬ 168 ≤ (hdrAt d (168 + off)).bnd := hb
        simp only [if_neg this]; finishing
  | @next n off c h _ ih =>
    intro f hf
    obtain ⟨f, rfl⟩ : ∃ g, f = g + 1 := ⟨f - 1, by omega⟩
    unfold extFindFrom
    rw [hdrAt_behind, List.length_drop, e168]
    unfold leadsBehind at h
    split at h
    · cases h
    · split at h
      · have hc := Option.some.inj h
        clear h
        subst hc
        simp only; finishing
        exact ih f (by omega)
      · cases h

theorem fin_payloadAt (d : Bytes) (c : Nat) : Finishes (payloadAt d c) := by
  unfold payloadAt; simp only; finishing
macro_rules | `(tactic| finish1) => `(tactic| with_reducible exact fin_payloadAt _ _)

theorem fin_extGet {t : ExtType} (h : Halts d 168) : Finishes (extGet t (d.drop assetLen)) := by
  have e168 : assetLen = 168 := rfl
  unfold extGet
  refine fin_bind ?_ fun _ _ => by finishing
  obtain ⟨n, h1, h2⟩ := h.behind (Nat.le_refl _)
  exact fin_extFindFrom h2 _ (by rw [List.length_drop]; omega)

theorem fin_updateFindFrom {t : ExtType} (h : HaltsIn d n off) : ∀ f, n < f → Finishes (updateFind t d f off) := by
  induction h with
  | stop h =>
    replace h := leads_none h
    intro f hf
    obtain ⟨f, rfl⟩ : ∃ g, f = g + 1 := ⟨f - 1, by omega⟩
    unfold updateFind
    rcases ends_cases h with h | h
    · split
      · rw [if_pos (by omega)]; exact fin_error (by decide)
      · exact fin_ok _
    · simp only [h]; finishing
      rename_i hc; exact absurd trivial hc
  | next h _ ih =>
    obtain ⟨h, rfl⟩ := leads_some h
    intro f hf
    obtain ⟨f, rfl⟩ : ∃ g, f = g + 1 := ⟨f - 1, by omega⟩
    unfold updateFind
    simp only; finishing
    exact ih f (by omega)

theorem fin_updateFind {t : ExtType} (h : Halts d 168) : Finishes (updateFind t d (d.length + 1) assetLen) := by
  obtain ⟨n, h1, h2⟩ := h.bounded
  exact fin_updateFindFrom h2 _ (by omega)

theorem fin_removeFindFrom {t : ExtType} (h : HaltsIn d n off) : ∀ f, n < f → Finishes (removeFind t d f off) := by
  induction h with
  | stop h =>
    replace h := leads_none h
    intro f hf
    obtain ⟨f, rfl⟩ : ∃ g, f = g + 1 := ⟨f - 1, by omega⟩
    unfold removeFind
    rcases ends_cases h with h | h
    · rw [if_neg (by omega)]; exact fin_ok _
    · simp only [h]; finishing
      rename_i hc; exact absurd trivial hc
  | next h _ ih =>
    obtain ⟨h, rfl⟩ := leads_some h
    intro f hf
    obtain ⟨f, rfl⟩ : ∃ g, f = g + 1 := ⟨f - 1, by omega⟩
    unfold removeFind
    simp only; finishing
    exact ih f (by omega)

theorem fin_removeFind {t : ExtType} (h : Halts d 168) : Finishes (removeFind t d (d.length + 1) assetLen) := by
  obtain ⟨n, h1, h2⟩ := h.bounded
  exact fin_removeFindFrom h2 _ (by omega)

theorem fin_assetContains {t : ExtType} (h : Halts d 168) : Finishes (assetContains t d) := by
  unfold assetContains; exact fin_bind (fin_find h) fun _ _ => fin_pure _

theorem fin_assetGet {t : ExtType} (h : Halts d 168) : Finishes (assetGet t d) := by
  unfold assetGet; exact fin_bind (fin_find h) fun _ _ => by finishing

theorem fin_assetGetMut {t : ExtType} (h : Halts d 168) : Finishes (assetGetMut t d) := by
  unfold assetGetMut; exact fin_bind (fin_find h) fun _ _ => by finishing
macro_rules | `(tactic| finish1) => `(tactic| with_reducible exact fin_lastExtension (by assumption))
macro_rules | `(tactic| finish1) => `(tactic| with_reducible exact fin_assetContains (by assumption))
macro_rules | `(tactic| finish1) => `(tactic| with_reducible exact fin_assetGet (by assumption))
macro_rules | `(tactic| finish1) => `(tactic| with_reducible exact fin_assetGetMut (by assumption))
macro_rules | `(tactic| finish1) => `(tactic| with_reducible exact fin_extGet (by assumption))
macro_rules | `(tactic| finish1) => `(tactic| with_reducible exact fin_updateFind (by assumption))
macro_rules | `(tactic| finish1) => `(tactic| with_reducible exact fin_removeFind (by assumption))

/-! ## The data of extensions -/

theorem fin_readStr (b : Bytes) : Finishes (readStr b) := by unfold readStr; finishing
macro_rules | `(tactic| finish1) => `(tactic| with_reducible exact fin_readStr _)

theorem fin_readPairs {f : Nat} {b : Bytes} (h : b.length < f) : Finishes (readPairs f b) := by
  induction f generalizing b with
  | zero => omega
  | succ f ih =>
    unfold readPairs
    split
    · exact fin_ok _
    · refine fin_bind (fin_readStr _) fun ⟨s, n⟩ h1 => fin_bind (fin_readStr _) fun ⟨s', m⟩ h2 =>
        fin_bind (ih ?_) fun _ _ => fin_pure _
      have := readStr_size h1
      rw [List.length_drop]; omega

theorem fin_readPairList (b : Bytes) : Finishes (readPairList b) := fin_readPairs (by omega)
macro_rules | `(tactic| finish1) => `(tactic| with_reducible exact fin_readPairList _)

theorem fin_readPropValue (b : Bytes) : Finishes (readPropValue b) := by unfold readPropValue; finishing
macro_rules | `(tactic| finish1) => `(tactic| with_reducible exact fin_readPropValue _)

theorem fin_readProps {f : Nat} {b : Bytes} (h : b.length < f) : Finishes (readProps f b) := by
  induction f generalizing b with
  | zero => omega
  | succ f ih =>
    unfold readProps
    split
    · exact fin_ok _
    · refine fin_bind (fin_readStr _) fun ⟨s, n⟩ h1 => fin_bind (fin_readPropValue _) fun ⟨s', m⟩ h2 =>
        fin_bind (ih ?_) fun _ _ => fin_pure _
      have := readStr_size h1
      rw [List.length_drop]; omega

theorem fin_readPropList (b : Bytes) : Finishes (readPropList b) := fin_readProps (by omega)
macro_rules | `(tactic| finish1) => `(tactic| with_reducible exact fin_readPropList _)

theorem fin_readGrouping (b : Bytes) : Finishes (readGrouping b) := by unfold readGrouping; finishing
macro_rules | `(tactic| finish1) => `(tactic| with_reducible exact fin_readGrouping _)

theorem fin_readManager (b : Bytes) : Finishes (readManager b) := by unfold readManager; finishing
macro_rules | `(tactic| finish1) => `(tactic| with_reducible exact fin_readManager _)

theorem fin_readProxy (b : Bytes) : Finishes (readProxy b) := by unfold readProxy; finishing
macro_rules | `(tactic| finish1) => `(tactic| with_reducible exact fin_readProxy _)

theorem fin_readCreators (b : Bytes) : Finishes (readCreators b) := by unfold readCreators; finishing
macro_rules | `(tactic| finish1) => `(tactic| with_reducible exact fin_readCreators _)

theorem fin_readBlob (b : Bytes) : Finishes (readBlob b) := by unfold readBlob; finishing
macro_rules | `(tactic| finish1) => `(tactic| with_reducible exact fin_readBlob _)

theorem fin_readBucket (b : Bytes) : Finishes (readBucket b) := by unfold readBucket; finishing
macro_rules | `(tactic| finish1) => `(tactic| with_reducible exact fin_readBucket _)

theorem fin_readMetadata (b : Bytes) : Finishes (readMetadata b) := by
  unfold readMetadata; finishing
  simp only; finishing
macro_rules | `(tactic| finish1) => `(tactic| with_reducible exact fin_readMetadata _)

theorem fin_parseConstraint (b : Bytes) : Finishes (parseConstraint b) := by
  unfold parseConstraint
  exact fin_bind ((parse_fuel (b.length + 2)).1 b (by omega)) fun _ _ => fin_pure _
macro_rules | `(tactic| finish1) => `(tactic| with_reducible exact fin_parseConstraint _)

theorem fin_readRoyalties (b : Bytes) : Finishes (readRoyalties b) := by unfold readRoyalties; finishing
macro_rules | `(tactic| finish1) => `(tactic| with_reducible exact fin_readRoyalties _)

theorem fin_evalC (ctx : CCtx) (c : Cst) : Finishes (evalC ctx c) := by
  intro h
  rcases evalC_err ctx c _ h with h | h <;> cases h
macro_rules | `(tactic| finish1) => `(tactic| with_reducible exact fin_evalC _ _)

theorem fin_keepVerified (a b : List Creator) : Finishes (creatorsKeepVerified a b) := by
  induction a with
  | nil => exact fin_ok _
  | cons c a ih => unfold creatorsKeepVerified; finishing
macro_rules | `(tactic| finish1) => `(tactic| with_reducible exact fin_keepVerified _ _)

theorem fin_onCreate (t : ExtType) (b : Bytes) (a : Option Key) : Finishes (onCreate t b a) := by
  unfold onCreate groupingOnCreate royaltiesCheck creatorsOnCreate
  simp only; finishing
macro_rules | `(tactic| finish1) => `(tactic| with_reducible exact fin_onCreate _ _ _)

theorem fin_onUpdate (t : ExtType) (o b : Bytes) (a : Option Key) : Finishes (onUpdate t o b a) := by
  unfold onUpdate groupingOnUpdate royaltiesCheck creatorsOnUpdate proxyOnUpdate
  simp only; finishing
macro_rules | `(tactic| finish1) => `(tactic| with_reducible exact fin_onUpdate _ _ _ _)

theorem fin_mapLife {r : Except Err α} (h : Finishes r) : Finishes (mapLife r) := by
  unfold mapLife; split
  · exact fin_error (by decide)
  · exact h
macro_rules | `(tactic| finish1) => `(tactic| with_reducible refine fin_mapLife ?_)

end Verif
