import Verif.Spec.Birth

/-!
# Well-formed ledgers

Every account of the program is an asset with a packed extension area, or a buffer. Instructions
that are used as intended (`Proper`) keep it that way.
-/

namespace Verif.Spec

open Verif

/-- No two extensions have the same type. -/
def Distinct (es : List Extn) : Prop := (es.map (·.1)).Nodup

/-- An account that is not (yet) an asset: nothing but zeros, a buffer with complete extensions, or
one whose last extension is still being written. -/
def Buffer (d : Bytes) : Prop :=
  (∀ i, byteAt d i = 0) ∨ (∃ es, Complete d es ∧ Distinct es) ∨
  ∃ es t n p, Pending d es t n p ∧ Distinct (es ++ [(t, p)])

/-- The account stores an asset without duplicate extensions. -/
def Tidy (program : Key) (L : Ledger) (k : Key) : Prop :=
  ∃ A, Stores program L k A ∧ Distinct A.exts

/-- Every account of the program is an asset or a buffer, of at most 10 MiB. -/
def WellFormed (program : Key) (L : Ledger) : Prop :=
  ∀ k, (L k).owner = program →
    (L k).data.length ≤ 10485760 ∧ (Tidy program L k ∨ Buffer (L k).data)

/-- The data of an unfinished extension after a Write. -/
def afterWrite (x : WriteInput) (p : Bytes) : Bytes := if x.overwrite then x.bytes else p ++ x.bytes

/-- The instruction is used as intended: new extensions have a type and fit into an account; no
more data is written than was announced; updates have a type, and those from a buffer are not of
type Creators or Grouping; only the last extension is removed. -/
def Proper (program : Key) (L : Ledger) (accts : List Key) : Instr → Prop
  | .allocate x => Fits x ∧ x.ty ≠ .none
  | .create x => Sane (asked x)
  | .write x => ∀ k, accts.head? = some k → ∀ es t n p, Pending (L k).data es t n p →
      (afterWrite x p).length ≤ n
  | .update x => (∀ e, x.extension = some e → e.ty ≠ .none) ∧
      ∀ b, accts[2]? = some b → b ≠ program →
        leNat (slice (L b).data 168 4) ≠ ExtType.creators.toU32 ∧
        leNat (slice (L b).data 168 4) ≠ ExtType.grouping.toU32
  | .remove t => ∀ k A, accts.head? = some k → Stores program L k A →
      t ≠ .none ∧ (A.exts.map (·.1)).getLast? = some t
  | _ => True

/-- One step of a history: an instruction used as intended, by anybody on any accounts, or
whatever other programs do. -/
inductive ProperStep (program : Key) : Ledger → Ledger → Prop
  | instr {L L' : Ledger} (E : Env) (accts : List Key) (i : Instr) (hp : E.program = program)
      (hl : ∀ k, E.origLen k = (L k).data.length) (h : execute E L accts i = .ok L')
      (hi : Proper program L accts i) : ProperStep program L L'
  | foreign {L L' : Ledger} (h : Foreign program L L') : ProperStep program L L'

/-- Histories. -/
inductive ProperSteps (program : Key) : Ledger → Ledger → Prop
  | refl (L : Ledger) : ProperSteps program L L
  | tail {L L' L'' : Ledger} (hs : ProperSteps program L L') (h : ProperStep program L' L'') :
      ProperSteps program L L''

/-- Nothing belongs to the program yet. -/
def Genesis (program : Key) (L : Ledger) : Prop := ∀ k, (L k).owner ≠ program

end Verif.Spec
