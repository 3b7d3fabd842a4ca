import Verif.Model.Program
import Verif.Spec.Asset

/-!
# Concrete ledgers used to show that hypotheses of theorems can be met
-/

namespace Verif.Ex

open Verif

/-- Key number `n`. -/
def k (n : UInt8) : Key := Key.ofBytes (List.replicate 32 n)

/-- The asset program. -/
def prog : Key := k 99

/-- Header of an asset. -/
def header (state standard mutableB : UInt8) (owner group authority delegate : Key) (roles : UInt8)
    (name : Bytes) : Bytes :=
  [1, state, standard, mutableB] ++ owner.1 ++ group.1 ++ authority.1 ++ delegate.1 ++ [roles] ++
    podStr35 name

/-- An extension block placed at `off`: header, payload, padding. -/
def block (off : Nat) (t : ExtType) (payload : Bytes) : Bytes :=
  let b := align8 (off + 16 + payload.length)
  toLE 4 t.toU32 ++ toLE 4 payload.length ++ toLE 4 b ++ zeros 4 ++ payload ++
    zeros (b - (off + 16 + payload.length))

/-- Extension blocks placed one after the other from `off` on. -/
def blocks : Nat → List (ExtType × Bytes) → Bytes
  | _, [] => []
  | off, (t, p) :: rest => block off t p ++ blocks (align8 (off + 16 + p.length)) rest

/-- A ledger from a list of accounts; all others are unused. -/
def ledger (l : List (Key × Account)) : Ledger := fun x =>
  match l.find? (fun p => p.1 = x) with
  | some p => p.2
  | none => ⟨0, [], Key.system⟩

/-- A program account with the given data. -/
def owned (d : Bytes) : Account := ⟨1000000, d, prog⟩

/-- A wallet. -/
def wallet : Account := ⟨5000000, [], Key.system⟩

/-- Environment: the given keys sign, everything is writable. -/
def env (L : Ledger) (signers : List Key) : Env where
  program := prog
  rent := fun n => 128 + n
  inCpi := false
  pda := fun _ bump _ => some (k bump)
  signer := fun x => signers.contains x
  writable := fun _ => true
  origLen := fun x => (L x).data.length

/-- The account `x` after an instruction. -/
def after (r : Except Err Ledger) (x : Key) : Except Err Account := r.map (· x)

/-- Running an instruction signed by `signers`. -/
def run (L : Ledger) (signers accts : List Key) (i : Instr) : Except Err Ledger :=
  execute (env L signers) L accts i

/-- Asset `k 1`: owner `k 2`, authority `k 3`, holder delegate `k 4` with all roles. -/
def simple : Ledger :=
  ledger [(k 1, owned (header 0 0 1 (k 2) Key.default (k 3) (k 4) 7 [65, 66])),
    (k 2, wallet), (k 3, wallet), (k 4, wallet), (k 5, wallet)]

/-- The same asset, managed by `k 6` (transfer and lock roles). -/
def managed : Ledger :=
  ledger [(k 1, owned (header 0 1 1 (k 2) Key.default (k 3) (k 4) 7 [65, 66] ++
      blocks 168 [(.attributes, [1, 97, 1, 98]), (.manager, (k 6).1 ++ [3])])),
    (k 2, wallet), (k 3, wallet), (k 4, wallet), (k 5, wallet), (k 6, wallet)]

end Verif.Ex
