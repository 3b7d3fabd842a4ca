import Verif.Spec.Builders
import Verif.Lemmas.Inv

/-!
# Builders of the Rust clients: lemmas
-/

namespace Verif

open Verif.Spec

/-- A field that one kind of setter changes holds the value of the last of them. -/
theorem field_final {α : Type} (get : Fields → Option α) (sel : Setting → Option (Option α))
    (h : ∀ f s, get (f.set s) = (sel s).getD (get f)) (f : Fields) (ss : List Setting) :
    get (ss.foldl Fields.set f) = ((ss.filterMap sel).getLast?).getD (get f) := by
  induction ss generalizing f with
  | nil => rfl
  | cons s ss ih =>
    rw [List.foldl_cons, ih, h]
    cases hs : sel s with
    | none => rw [List.filterMap_cons_none hs]; rfl
    | some v =>
      rw [List.filterMap_cons_some hs, List.getLast?_cons]
      cases (ss.filterMap sel).getLast? <;> rfl

theorem field_start {α : Type} (get : Fields → Option α) (sel : Setting → Option (Option α))
    (h : ∀ f s, get (f.set s) = (sel s).getD (get f)) (h0 : get {} = none) (ss : List Setting) :
    get (ss.foldl Fields.set {}) = final sel ss := by
  rw [field_final get sel h, h0]
  unfold final
  cases (ss.filterMap sel).getLast? <;> rfl

theorem remaining_extra (f : Fields) (ss : List Setting) :
    (ss.foldl Fields.set f).remaining = f.remaining ++ extra ss := by
  induction ss generalizing f with
  | nil => simp [extra]
  | cons s ss ih =>
    rw [List.foldl_cons, ih]
    cases s <;> simp [Fields.set, extra]

theorem expectSet_ok {α : Type} {o : Option α} {a : α} : expectSet o = .ok a ↔ o = some a := by
  cases o <;> simp [expectSet]

/-- The fields after all setters. -/
theorem fields_final (ss : List Setting) :
    ss.foldl Fields.set {} =
      { asset := final ofAsset ss, buffer := final ofBuffer ss, recipient := final ofRecipient ss,
        signer := final ofSigner ss, owner := final ofOwner ss, delegate := final ofDelegate ss,
        authority := final ofAuthority ss, newAuthority := final ofNewAuthority ss,
        creator := final ofCreator ss, group := final ofGroup ss,
        groupAuthority := final ofGroupAuthority ss, payer := final ofPayer ss,
        systemProgram := final ofSystem ss, extension := final ofExtension ss,
        delegateInput := final ofDelegateInput ss, name := final ofName ss,
        standard := final ofStandard ss, isMutable := final ofMutable ss,
        extensions := final ofExtensions ss, extensionType := final ofType ss,
        strategy := final ofStrategy ss, overwrite := final ofOverwrite ss, bytes := final ofBytes ss,
        remaining := extra ss } := by
  have e : ∀ f g : Fields, f.asset = g.asset → f.buffer = g.buffer → f.recipient = g.recipient →
      f.signer = g.signer → f.owner = g.owner → f.delegate = g.delegate → f.authority = g.authority →
      f.newAuthority = g.newAuthority → f.creator = g.creator → f.group = g.group →
      f.groupAuthority = g.groupAuthority → f.payer = g.payer → f.systemProgram = g.systemProgram →
      f.extension = g.extension → f.delegateInput = g.delegateInput → f.name = g.name →
      f.standard = g.standard → f.isMutable = g.isMutable → f.extensions = g.extensions →
      f.extensionType = g.extensionType → f.strategy = g.strategy → f.overwrite = g.overwrite →
      f.bytes = g.bytes → f.remaining = g.remaining → f = g := by
    rintro ⟨⟩ ⟨⟩
    intros
    simp_all
  refine e _ _ ?_ ?_ ?_ ?_ ?_ ?_ ?_ ?_ ?_ ?_ ?_ ?_ ?_ ?_ ?_ ?_ ?_ ?_ ?_ ?_ ?_ ?_ ?_ ?_
  case refine_24 => rw [remaining_extra]; rfl
  case refine_12 =>
    refine field_start (·.payer) ofPayer (fun f s => ?_) rfl ss
    cases s with
    | payer o s => cases o <;> rfl
    | _ => rfl
  · exact field_start (·.asset) ofAsset (fun f s => by cases s <;> rfl) rfl ss
  · exact field_start (·.buffer) ofBuffer (fun f s => by cases s <;> rfl) rfl ss
  · exact field_start (·.recipient) ofRecipient (fun f s => by cases s <;> rfl) rfl ss
  · exact field_start (·.signer) ofSigner (fun f s => by cases s <;> rfl) rfl ss
  · exact field_start (·.owner) ofOwner (fun f s => by cases s <;> rfl) rfl ss
  · exact field_start (·.delegate) ofDelegate (fun f s => by cases s <;> rfl) rfl ss
  · exact field_start (·.authority) ofAuthority (fun f s => by cases s <;> rfl) rfl ss
  · exact field_start (·.newAuthority) ofNewAuthority (fun f s => by cases s <;> rfl) rfl ss
  · exact field_start (·.creator) ofCreator (fun f s => by cases s <;> rfl) rfl ss
  · exact field_start (·.group) ofGroup (fun f s => by cases s <;> rfl) rfl ss
  · exact field_start (·.groupAuthority) ofGroupAuthority (fun f s => by cases s <;> rfl) rfl ss
  · exact field_start (·.systemProgram) ofSystem (fun f s => by cases s <;> rfl) rfl ss
  · exact field_start (·.extension) ofExtension (fun f s => by cases s <;> rfl) rfl ss
  · exact field_start (·.delegateInput) ofDelegateInput (fun f s => by cases s <;> rfl) rfl ss
  · exact field_start (·.name) ofName (fun f s => by cases s <;> rfl) rfl ss
  · exact field_start (·.standard) ofStandard (fun f s => by cases s <;> rfl) rfl ss
  · exact field_start (·.isMutable) ofMutable (fun f s => by cases s <;> rfl) rfl ss
  · exact field_start (·.extensions) ofExtensions (fun f s => by cases s <;> rfl) rfl ss
  · exact field_start (·.extensionType) ofType (fun f s => by cases s <;> rfl) rfl ss
  · exact field_start (·.strategy) ofStrategy (fun f s => by cases s <;> rfl) rfl ss
  · exact field_start (·.overwrite) ofOverwrite (fun f s => by cases s <;> rfl) rfl ss
  · exact field_start (·.bytes) ofBytes (fun f s => by cases s <;> rfl) rfl ss

end Verif
