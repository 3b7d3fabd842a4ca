import Verif.Model.JsCalls
import Verif.Spec.Privileges

/-!
# What a request to the JavaScript client stands for

The call of the Rust client with the same accounts and arguments, after the defaults: the identity of
the context in place of an owner, authority or signer, the payer of the context for Write and Resize,
and the system program where there is somebody to pay.
-/

namespace Verif.Spec

open Verif

/-- An extension input. -/
def extInputOf (x : JsExtInput) : ExtInput := ⟨x.extensionType, UInt32.ofNat x.length, x.data⟩

/-- A strategy. -/
def strategyOf : JsStrategy → Strategy
  | .trim => .trim
  | .extend v => .extend (UInt16.ofNat v)

/-- The system program: the one given, or the default one if there is a payer. -/
def systemOf (payer sys : Option Key) : Option Key :=
  match sys with
  | some s => some s
  | none => payer.map fun _ => Key.system

/-- The call a request stands for. -/
def callOf (ctx : JsContext) : JsInput → Call
  | .close buffer recipient => .close buffer recipient
  | .burn asset signer recipient g => .burn asset signer recipient g
  | .create asset authority owner g groupAuthority payer sys name standard isMutable extensions =>
    .create asset (authority.getD (ctx.identity, true)) (owner.getD ctx.identity) g groupAuthority
      payer (systemOf payer sys)
      ⟨name, standard.getD .nonFungible, isMutable.getD true, extensions.map (·.map extInputOf)⟩
  | .approve asset owner delegate x => .approve asset (owner.getD ctx.identity) delegate x
  | .allocate asset payer sys x => .allocate asset payer (systemOf payer sys) (extInputOf x)
  | .lock asset signer => .lock asset (signer.getD ctx.identity)
  | .revoke asset signer x => .revoke asset (signer.getD ctx.identity) x
  | .transfer asset signer recipient g => .transfer asset (signer.getD ctx.identity) recipient g
  | .unlock asset signer => .unlock asset (signer.getD ctx.identity)
  | .unverify asset creator => .unverify asset creator
  | .update asset authority buffer g payer sys name isMutable extension =>
    .update asset (authority.getD ctx.identity) buffer g payer (systemOf payer sys)
      ⟨name, isMutable, extension.map extInputOf⟩
  | .verify asset creator => .verify asset creator
  | .write asset payer sys overwrite bytes =>
    .write asset (payer.getD ctx.payer) (sys.getD Key.system) ⟨overwrite, bytes⟩
  | .group asset g authority => .group asset g (authority.getD ctx.identity)
  | .ungroup asset g authority => .ungroup asset g (authority.getD ctx.identity)
  | .handover asset authority newAuthority =>
    .handover asset (authority.getD ctx.identity) newAuthority
  | .remove asset authority g recipient t =>
    .remove asset (authority.getD ctx.identity) g (recipient.getD ctx.identity) t
  | .resize asset authority payer sys s =>
    .resize asset (authority.getD ctx.identity) (payer.getD (ctx.payer, true))
      (some (sys.getD Key.system)) (strategyOf s)

/-- The numbers in an extension input fit. -/
def ExtFits (x : JsExtInput) : Prop :=
  x.length < 4294967296 ∧ IfAny Short x.data

/-- Everything in a request fits into its field. -/
def InputFits : JsInput → Prop
  | .create _ _ _ _ _ _ _ name _ _ extensions =>
    Short name ∧ IfAny (fun l => Short l ∧ ∀ x ∈ l, ExtFits x) extensions
  | .approve _ _ _ x | .revoke _ _ x => RolesOk x
  | .allocate _ _ _ x => ExtFits x
  | .update _ _ _ _ _ _ name _ extension => IfAny Short name ∧ IfAny ExtFits extension
  | .write _ _ _ _ bytes => Short bytes
  | .resize _ _ _ _ (.extend v) => v < 65536
  | _ => True

/-- Names are text, as every JavaScript string is. -/
def TextIn : JsInput → Prop
  | .create _ _ _ _ _ _ _ name _ _ _ => validUtf8 name = true
  | .update _ _ _ _ _ _ name _ _ => IfAny (fun s => validUtf8 s = true) name
  | _ => True

/-- The instructions that the client can send through a proxy program and that the example proxy
program passes on to the asset program. -/
def PassedOn : JsInput → Prop
  | .approve .. | .burn .. | .group .. | .handover .. | .lock .. | .remove .. | .revoke .. | .ungroup ..
  | .unlock .. | .unverify .. | .verify .. => True
  | _ => False

/-- The call with an account in place of every account left out. -/
def filled (k : Key) : Call → Call
  | .burn asset signer recipient g =>
    .burn asset signer (some (recipient.getD k)) (some (g.getD k))
  | .remove asset authority g recipient t => .remove asset authority (some (g.getD k)) recipient t
  | c => c

end Verif.Spec
