import Verif.Lemmas.ReasonsExt
import Verif.Props.C04
import Verif.Props.C25

/-!
# C80: Errors say what is wrong, and clients can read them
-/

namespace Verif.Props

open Verif Verif.Spec

section
variable {E : Env} {L : Ledger} {accts : List Key} {i : Instr}

/-- An error of the program has its reason in the accounts and the request; the exception is the
removal of an extension without data at the end of the account. -/
theorem C80_truthful_partial {e : AssetError} (h : execute E L accts i = .error (.asset e)) :
    Reason E L (accts.take 7) i e ∨
      (e = .extensionNotFound ∧ Overlooked E L (accts.take 7) i) :=
  blames_execute e h

/-- All errors but `ExtensionNotFound` are truthful without exception. -/
theorem C80_reason {e : AssetError} (h : execute E L accts i = .error (.asset e))
    (he : e ≠ .extensionNotFound) : Reason E L (accts.take 7) i e := by
  rcases C80_truthful_partial h with h | ⟨h, _⟩
  · exact h
  · exact absurd h he

/-- The program never complains about the alignment. -/
theorem C80_alignment : execute E L accts i ≠ .error (.asset .invalidAlignment) :=
  fun h => C80_reason h (by decide)

/-! ## Numbers -/

/-- What is returned to the runtime is not taken for success and determines the error. -/
theorem C80_returned {e e' : Err} {n : Nat} (h : e.returned = some n) :
    n ≠ 0 ∧ n < 2 ^ 64 ∧ (e'.returned = some n → e' = e) := by
  refine ⟨?_, ?_, fun h' => ?_⟩
  · cases e with
    | asset a => cases a <;> (cases h; decide)
    | types a => cases h
    | _ => cases h <;> decide
  · cases e with
    | asset a => cases a <;> (cases h; decide)
    | types a => cases h
    | _ => cases h <;> decide
  · rw [← h] at h'
    cases e with
    | asset a =>
      cases e' with
      | asset b => cases a <;> cases b <;> first | rfl | exact absurd h' (by decide)
      | types b => rw [h] at h'; cases h'
      | _ => cases a <;> first | exact absurd h' (by decide) | (rw [h] at h'; cases h'; done)
    | types a => cases h
    | _ =>
      cases e' with
      | asset b => cases b <;> first | exact absurd h' (by decide) | (cases h; done)
      | types b => rw [h] at h'; cases h'
      | _ => first | rfl | exact absurd h' (by decide) | (cases h; done)

/-- A client gets to see a custom code exactly for the errors of the asset program, and it is the
code of the error. -/
theorem C80_custom {e : Err} {n : Nat} (h : e.returned = some n) (c : Nat) :
    customCode n = some c ↔ ∃ a, e = .asset a ∧ c = a.code := by
  cases e with
  | asset a =>
    have : customCode n = some a.code := by cases a <;> (cases h; decide)
    rw [this]
    constructor
    · intro hc; exact ⟨a, rfl, (Option.some.inj hc).symm⟩
    · rintro ⟨b, hb, rfl⟩; cases hb; rfl
  | types a => cases h
  | _ =>
    first
      | (cases h; done)
      | (have : customCode n = none := by cases h; decide
         rw [this]; simp)

/-! ## Tables -/

/-- The clients and the interface descriptions have the code, the name and the message of every
error of the program. -/
theorem C80_agreed (e : AssetError) : AgreedOn e := by
  unfold AgreedOn
  cases e <;> decide +kernel

/-- And no others. -/
theorem C80_only (n : Nat) : (rustAssetError n ≠ none ↔ ∃ e : AssetError, e.code = n) ∧
    (jsAssetError n ≠ none ↔ ∃ e : AssetError, e.code = n) ∧ idlErrors.length = 22 ∧
    codamaErrors.length = 22 := by
  have hcode : ∀ e : AssetError, e.code < 22 := by intro e; cases e <;> decide
  have known : ∀ n < 22, ∃ e : AssetError, e.code = n := by
    intro n hn
    have : ∀ n ∈ List.range 22, n ∈ [AssetError.alreadyInitialized, .invalidAccountLength,
        .incompleteExtensionData, .uninitialized, .extensionNotFound, .invalidAlignment,
        .invalidBurnAuthority, .invalidTransferAuthority, .delegateNotFound, .delegateRoleNotActive,
        .invalidDelegate, .invalidAssetOwner, .lockedAsset, .invalidAuthority, .immutableAsset,
        .cannotTransferSoulbound, .extensionDataInvalid, .invalidGroup, .assertionFailure,
        .groupNotEmpty, .alreadyInGroup, .extensionLengthInvalid].map AssetError.code := by decide
    obtain ⟨e, _, he⟩ := List.mem_map.mp (this n (List.mem_range.mpr hn))
    exact ⟨e, he⟩
  refine ⟨⟨fun h => ?_, ?_⟩, ⟨fun h => ?_, ?_⟩, rfl, rfl⟩
  · refine known n ?_
    obtain ⟨r, hr⟩ := Option.ne_none_iff_exists'.mp h
    have h1 := List.mem_of_find?_eq_some hr
    have h2 : r.code = n := by simpa using List.find?_some hr
    have h3 : ∀ r ∈ rustAssetErrors, r.code < 22 := by decide +kernel
    rw [← h2]; exact h3 r h1
  · rintro ⟨e, rfl⟩; rw [(C80_agreed e).1]; simp
  · refine known n ?_
    obtain ⟨r, hr⟩ := Option.ne_none_iff_exists'.mp h
    unfold jsAssetError mapGet at hr
    obtain ⟨q, hq, _⟩ := Option.map_eq_some_iff.mp hr
    have h1 := List.mem_of_find?_eq_some hq
    have h2 : q.1 = n := by simpa using List.find?_some hq
    have h3 : ∀ r ∈ jsAssetCodes.reverse, r.1 < 22 := by decide +kernel
    rw [← h2]; exact h3 q h1
  · rintro ⟨e, rfl⟩; rw [(C80_agreed e).2.1]; simp

/-- What a client of the asset program shows for a failed instruction is the error of the program,
and it is true. -/
theorem C80_shown_partial {e : Err} {n c : Nat} (h : execute E L accts i = .error e)
    (hn : e.returned = some n) (hc : customCode n = some c) :
    ∃ a : AssetError, jsAssetError c = some ⟨a.name, c, a.message⟩ ∧
      rustAssetError c = some ⟨c, a.name, a.message⟩ ∧
      (Reason E L (accts.take 7) i a ∨
        (a = .extensionNotFound ∧ Overlooked E L (accts.take 7) i)) := by
  obtain ⟨a, rfl, rfl⟩ := (C80_custom hn c).mp hc
  exact ⟨a, (C80_agreed a).2.1, (C80_agreed a).1, C80_truthful_partial h⟩

/-- The bridge and the proxy pass errors of the asset program on; their clients read two of these
codes as errors of their own, and cannot read the others. -/
theorem C80_foreign (e : AssetError) :
    (jsBridgeError e.code = jsProxyError e.code) ∧ (jsBridgeError e.code ≠ none ↔ e.code < 2) ∧
    ∀ j, jsBridgeError e.code = some j → j.name ≠ e.name := by
  cases e <;> decide +kernel

end

section Examples
open Verif.Ex

/-- An asset with an empty list of attributes, and nothing behind it. -/
def emptyLast : Ledger :=
  ledger [(k 1, owned (header 0 0 1 (k 2) Key.default (k 3) Key.default 0 [65] ++
    blocks 168 [(.attributes, [])])), (k 3, wallet), (k 5, wallet)]

theorem error_of_after {r : Except Err Ledger} {x : Key} {e : Err} (h : after r x = .error e) :
    r = .error e := by
  cases r with
  | ok _ => cases h
  | error _ => exact congrArg Except.error (Except.error.inj h)

/-- The full claim is false: the authority is told that there is no such extension, although it is
there. -/
theorem C80_false : ∃ (E : Env) (L : Ledger) (accts : List Key) (A : Asset),
    execute E L accts (.remove .attributes) = .error (.asset .extensionNotFound) ∧
    accts.head? = some (k 1) ∧ Stores E.program L (k 1) A ∧ lookup .attributes A.exts = some [] ∧
    ¬ Reason E L (accts.take 7) (.remove .attributes) .extensionNotFound := by
  have hs : Stores prog emptyLast (k 1) (Asset.of (assetAt emptyLast (k 1)) [(.attributes, [])]) := by
    refine ⟨⟨by decide +kernel, by decide +kernel, by decide +kernel⟩, by decide +kernel, rfl, 184, ?_, by decide +kernel⟩
    exact Packed.cons (by decide) (by decide +kernel) (by decide +kernel) (by decide +kernel)
      (by decide +kernel) (Packed.nil (by decide +kernel))
  refine ⟨env emptyLast [k 3], emptyLast, [k 1, k 3, prog, k 5], _,
    error_of_after (x := k 1) (by decide +kernel), rfl, hs, rfl,
    fun h => ?_⟩
  have := h _ hs
  cases this

/-- A locked asset cannot be burned: 12, `LockedAsset`. -/
example : (execute (env lockedL [k 2]) lockedL [k 1, k 2, k 5, prog] .burn).isOk = false ∧
    (match execute (env lockedL [k 2]) lockedL [k 1, k 2, k 5, prog] .burn with
      | .ok _ => none
      | .error e => (e.returned.bind customCode).bind jsAssetError) =
    some ⟨"LockedAsset", 12, "Asset is locked"⟩ := by decide +kernel

/-- The first error has the code 0; the runtime and the client still see an error. -/
example : (Err.asset .alreadyInitialized).returned = some (2 ^ 32) ∧
    customCode (2 ^ 32) = some 0 ∧
    (jsAssetError 0).map (·.name) = some "AlreadyInitialized" ∧
    (jsBridgeError 0).map (·.name) = some "InvalidMint" := by decide +kernel

/-- The stranger `k 5` is told that they have no right to transfer, and that is so. -/
example : after (run simple [k 5] [k 1, k 5, k 2, prog] .transfer) (k 1) =
      .error (.asset .invalidTransferAuthority) ∧
    (assetAt simple (k 1)).owner ≠ k 5 ∧ (assetAt simple (k 1)).delegate ≠ k 5 := by
  decide +kernel

end Examples

end Verif.Props
