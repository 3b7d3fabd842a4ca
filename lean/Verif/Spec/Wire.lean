import Verif.Model.Borsh

/-!
# Which instructions exist as Rust values that can be serialised

Strings are valid UTF-8 (an invariant of `String`), and no list has 2^32 or more elements
(otherwise serialisation fails).
-/

namespace Verif.Spec

open Verif

/-- Its length fits into 32 bits. -/
def Short {α : Type} (l : List α) : Prop := l.length < 4294967296

/-- A string. -/
def Text (s : Bytes) : Prop := Short s ∧ validUtf8 s = true

/-- A condition on the value, if there is one. -/
def IfAny {α : Type} (P : α → Prop) (o : Option α) : Prop := ∀ a, o = some a → P a

/-- An extension input. -/
def ExtOk (x : ExtInput) : Prop := IfAny Short x.data

/-- A role list. -/
def RolesOk : DelegateInput → Prop
  | .all => True
  | .some rs => Short rs

/-- An instruction. -/
def InstrOk : Instr → Prop
  | .create x => Text x.name ∧ IfAny (fun xs => Short xs ∧ ∀ e ∈ xs, ExtOk e) x.extensions
  | .approve x | .revoke x => RolesOk x
  | .allocate x => ExtOk x
  | .update x => IfAny Text x.name ∧ IfAny ExtOk x.extension
  | .write x => Short x.bytes
  | _ => True

end Verif.Spec
