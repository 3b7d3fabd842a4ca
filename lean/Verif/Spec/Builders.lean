import Verif.Model.Builders

/-!
# What a sequence of setters asks for

For each field the last setter counts. Which fields an instruction has, which of them may be left out
and what stands for them is listed here once more, by instruction.
-/

namespace Verif.Spec

open Verif

/-- The value of the last setter that `sel` selects. -/
def final {α : Type} (sel : Setting → Option (Option α)) (ss : List Setting) : Option α :=
  ((ss.filterMap sel).getLast?).join

/-- Setters of single fields. -/
def ofAsset : Setting → Option (Option Key) | .asset k => some (some k) | _ => none
@[inherit_doc ofAsset] def ofBuffer : Setting → Option (Option Key) | .buffer o => some o | _ => none
@[inherit_doc ofAsset] def ofRecipient : Setting → Option (Option Key) | .recipient o => some o | _ => none
@[inherit_doc ofAsset] def ofSigner : Setting → Option (Option Key) | .signer k => some (some k) | _ => none
@[inherit_doc ofAsset] def ofOwner : Setting → Option (Option Key) | .owner k => some (some k) | _ => none
@[inherit_doc ofAsset] def ofDelegate : Setting → Option (Option Key) | .delegate k => some (some k) | _ => none
@[inherit_doc ofAsset] def ofAuthority : Setting → Option (Option (Key × Bool))
  | .authority k s => some (some (k, s)) | _ => none
@[inherit_doc ofAsset] def ofNewAuthority : Setting → Option (Option Key)
  | .newAuthority k => some (some k) | _ => none
@[inherit_doc ofAsset] def ofCreator : Setting → Option (Option Key) | .creator k => some (some k) | _ => none
@[inherit_doc ofAsset] def ofGroup : Setting → Option (Option Key) | .group o => some o | _ => none
@[inherit_doc ofAsset] def ofGroupAuthority : Setting → Option (Option Key)
  | .groupAuthority o => some o | _ => none
@[inherit_doc ofAsset] def ofPayer : Setting → Option (Option (Key × Bool))
  | .payer (some k) s => some (some (k, s)) | .payer none _ => some none | _ => none
@[inherit_doc ofAsset] def ofSystem : Setting → Option (Option Key) | .systemProgram o => some o | _ => none
@[inherit_doc ofAsset] def ofExtension : Setting → Option (Option ExtInput)
  | .extension x => some (some x) | _ => none
@[inherit_doc ofAsset] def ofDelegateInput : Setting → Option (Option DelegateInput)
  | .delegateInput x => some (some x) | _ => none
@[inherit_doc ofAsset] def ofName : Setting → Option (Option Bytes) | .name b => some (some b) | _ => none
@[inherit_doc ofAsset] def ofStandard : Setting → Option (Option Standard)
  | .standard s => some (some s) | _ => none
@[inherit_doc ofAsset] def ofMutable : Setting → Option (Option Bool)
  | .isMutable b => some (some b) | _ => none
@[inherit_doc ofAsset] def ofExtensions : Setting → Option (Option (List ExtInput))
  | .extensions l => some (some l) | _ => none
@[inherit_doc ofAsset] def ofType : Setting → Option (Option ExtType)
  | .extensionType t => some (some t) | _ => none
@[inherit_doc ofAsset] def ofStrategy : Setting → Option (Option Strategy)
  | .strategy s => some (some s) | _ => none
@[inherit_doc ofAsset] def ofOverwrite : Setting → Option (Option Bool)
  | .overwrite b => some (some b) | _ => none
@[inherit_doc ofAsset] def ofBytes : Setting → Option (Option Bytes) | .bytes b => some (some b) | _ => none

/-- The accounts added at the end. -/
def extra : List Setting → List Meta
  | [] => []
  | .remaining ms :: ss => ms ++ extra ss
  | _ :: ss => extra ss

/-- The setters ask for this call. `sys` tells whether the system program of Write may be left out. -/
def Asks (sys : Bool) (ss : List Setting) : Call → Prop
  | .close buffer recipient =>
    final ofBuffer ss = some buffer ∧ final ofRecipient ss = some recipient
  | .burn asset signer recipient g =>
    final ofAsset ss = some asset ∧ final ofSigner ss = some signer ∧ final ofRecipient ss = recipient ∧
      final ofGroup ss = g
  | .create asset authority owner g groupAuthority payer system x =>
    final ofAsset ss = some asset ∧ final ofAuthority ss = some authority ∧
      final ofOwner ss = some owner ∧ final ofGroup ss = g ∧
      final ofGroupAuthority ss = groupAuthority ∧ (final ofPayer ss).map (·.1) = payer ∧
      final ofSystem ss = system ∧ final ofName ss = some x.name ∧
      (final ofStandard ss = some x.standard ∨ final ofStandard ss = none ∧ x.standard = .nonFungible) ∧
      (final ofMutable ss = some x.isMutable ∨ final ofMutable ss = none ∧ x.isMutable = true) ∧
      final ofExtensions ss = x.extensions
  | .approve asset owner delegate x =>
    final ofAsset ss = some asset ∧ final ofOwner ss = some owner ∧
      final ofDelegate ss = some delegate ∧ final ofDelegateInput ss = some x
  | .allocate asset payer system x =>
    final ofAsset ss = some asset ∧ (final ofPayer ss).map (·.1) = payer ∧
      final ofSystem ss = system ∧ final ofExtension ss = some x
  | .lock asset signer | .unlock asset signer =>
    final ofAsset ss = some asset ∧ final ofSigner ss = some signer
  | .revoke asset signer x =>
    final ofAsset ss = some asset ∧ final ofSigner ss = some signer ∧ final ofDelegateInput ss = some x
  | .transfer asset signer recipient g =>
    final ofAsset ss = some asset ∧ final ofSigner ss = some signer ∧
      final ofRecipient ss = some recipient ∧ final ofGroup ss = g
  | .verify asset creator | .unverify asset creator =>
    final ofAsset ss = some asset ∧ final ofCreator ss = some creator
  | .update asset authority buffer g payer system x =>
    final ofAsset ss = some asset ∧ (final ofAuthority ss).map (·.1) = some authority ∧
      final ofBuffer ss = buffer ∧ final ofGroup ss = g ∧ (final ofPayer ss).map (·.1) = payer ∧
      final ofSystem ss = system ∧ final ofName ss = x.name ∧ final ofMutable ss = x.isMutable ∧
      final ofExtension ss = x.extension
  | .write asset payer system x =>
    final ofAsset ss = some asset ∧ (final ofPayer ss).map (·.1) = some payer ∧
      (final ofSystem ss = some system ∨ sys = true ∧ final ofSystem ss = none ∧ system = Key.system) ∧
      final ofOverwrite ss = some x.overwrite ∧ final ofBytes ss = some x.bytes
  | .group asset g authority | .ungroup asset g authority =>
    final ofAsset ss = some asset ∧ final ofGroup ss = some g ∧
      (final ofAuthority ss).map (·.1) = some authority
  | .handover asset authority newAuthority =>
    final ofAsset ss = some asset ∧ (final ofAuthority ss).map (·.1) = some authority ∧
      final ofNewAuthority ss = some newAuthority
  | .remove asset authority g recipient t =>
    final ofAsset ss = some asset ∧ (final ofAuthority ss).map (·.1) = some authority ∧
      final ofGroup ss = g ∧ final ofRecipient ss = some recipient ∧ final ofType ss = some t
  | .resize asset authority payer system s =>
    final ofAsset ss = some asset ∧ (final ofAuthority ss).map (·.1) = some authority ∧
      final ofPayer ss = some payer ∧ final ofSystem ss = system ∧ final ofStrategy ss = some s

end Verif.Spec
