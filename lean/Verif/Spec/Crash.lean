import Verif.Spec.Exact
import Verif.Spec.Forge
import Verif.Spec.Ending
import Verif.Spec.Readable
import Verif.Spec.Birth

/-!
# Crashes

An instruction that fails should say why. A crash does not: the program panics, never ends, leaves the
memory it was given, or uses a value its types do not have.
-/

namespace Verif.Spec

open Verif

/-- The program did not refuse; it broke down. -/
def Crash (e : Err) : Prop := e = .panic ∨ e = .diverge ∨ e = .oob ∨ e = .undef

/-- The data of the extensions that instructions other than Update look into can be read, and the
royalties refer to no other accounts than those of a transfer. -/
def Intact (A : Asset) : Prop :=
  ManagerReadable A ∧ GroupReadable A ∧
  (∀ p, lookup .creators A.exts = some p → p.length % 34 = 0) ∧
  ∀ p, lookup .royalties A.exts = some p → 8 ≤ p.length ∧ ∃ c, parseConstraint (p.drop 8) = .ok c ∧
    ∀ ctx : CCtx, ctx.recipient.isSome → Scoped ctx c

/-- If the account belongs to the program, it stores an intact asset, or no asset: then it is empty or
has at least three bytes. -/
def Proven (program : Key) (L : Ledger) (k : Key) : Prop :=
  (L k).owner = program →
    (∃ A, Stores program L k A ∧ Intact A) ∨
    (byteAt (L k).data 0 ≠ 1 ∧ ((L k).data = [] ∨ 3 ≤ (L k).data.length))

/-- The data of every extension of the list can be read. -/
def AllReadable (es : List Extn) : Prop := ∀ x ∈ es, Readable x.1 x.2

/-- A buffer in which the data of every finished extension can be read. -/
def ReadableBuffer (d : Bytes) : Prop :=
  (∀ i, byteAt d i = 0) ∨ (∃ es, Complete d es ∧ AllReadable es) ∨
  ∃ es t n p, Pending d es t n p ∧ AllReadable es ∧ (p.length = n → Readable t p)

/-- If the account belongs to the program and is no asset yet, `P` holds of its data. -/
def IfBuffer (program : Key) (L : Ledger) (k : Key) (P : Bytes → Prop) : Prop :=
  (L k).owner = program → byteAt (L k).data 0 = 0 → P (L k).data

/-- Instructions that bring data of extensions bring data that can be read, and add to buffers that are
in order. An Update takes its data from the instruction, and the asset has no room behind its extensions.
Nobody names the type of which there is no extension. -/
def Careful (program : Key) (L : Ledger) (accts : List Key) : Instr → Prop
  | .allocate x => Fits x ∧ ∀ k, accts.head? = some k → IfBuffer program L k fun d => Halts d 168
  | .write x => ∀ k, accts.head? = some k → IfBuffer program L k fun d => Buffer d ∧
      ∀ es t n p, Pending d es t n p → (afterWrite x p).length ≤ n ∧
        ((afterWrite x p).length = n → Readable t (afterWrite x p))
  | .create x => Sane (asked x) ∧ (∀ y ∈ asked x, (given y).length = y.length.toNat → Readable y.ty (given y)) ∧
      ∀ k, accts.head? = some k →
        IfBuffer program L k fun d => ReadableBuffer d ∧ d.length ≤ 10485760
  | .update x => (∀ b, accts[2]? = some b → b = program) ∧ ∀ e, x.extension = some e →
      e.ty ≠ .none ∧ e.length.toNat < 1073741824 ∧
      ∀ k A, accts.head? = some k → Stores program L k A → Tight L k A ∧
        ∀ p, e.data = some p → Readable e.ty p ∧ ∀ o, lookup e.ty A.exts = some o → Readable e.ty o
  | .remove t => t ≠ .none
  | _ => True

/-- The lamports of two accounts are less than 2^64. -/
def Affordable (L : Ledger) : Prop :=
  ∀ x y, x ≠ y → (L x).lamports + (L y).lamports < 18446744073709551616

/-- The group named by a Burn is an asset of the program, unless none is named; that named by a Transfer has
data if it belongs to the program. -/
def GroupKept (program : Key) (L : Ledger) (accts : List Key) : Instr → Prop
  | .burn => ∀ g, accts[3]? = some g → g = program ∨ IsAsset program L g
  | .transfer => ∀ g, accts[3]? = some g → (L g).owner = program → (L g).data ≠ []
  | _ => True

end Verif.Spec
