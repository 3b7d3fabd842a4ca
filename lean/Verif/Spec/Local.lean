import Verif.Model.Program

/-!
# Ledgers put together from two

`merge L S M` holds the accounts with an address in `S` as in `L`, and all others as in `M`.
-/

namespace Verif.Spec

open Verif

def merge (L : Ledger) (S : List Key) (M : Ledger) : Ledger := fun x => if x ∈ S then L x else M x

/-- The same environment for accounts of other lengths at the start of the instruction. -/
def _root_.Verif.Env.lens (E : Env) (f : Key → Nat) : Env := { E with origLen := f }

/-- The environment of an instruction that starts on the given ledger. -/
def _root_.Verif.Env.on (E : Env) (L : Ledger) : Env := E.lens fun k => (L k).data.length

/-- Two ledgers hold the same accounts at the given addresses. -/
def Agree (S : List Key) (L M : Ledger) : Prop := ∀ x ∈ S, L x = M x

/-- What two instructions both name, neither of them may write. -/
def Independent (E E' : Env) (a a' : List Key) : Prop :=
  ∀ x ∈ a, x ∈ a' → E.writable x = false ∧ E'.writable x = false

/-- An instruction with the accounts and privileges it comes with. -/
structure Job where
  env : Env
  accts : List Key
  instr : Instr

/-- Run an instruction. -/
def Job.run (j : Job) (L : Ledger) : Except Err Ledger := execute (j.env.on L) L j.accts j.instr

/-- Run instructions in the given order. -/
def runJobs : List Job → Ledger → Except Err Ledger
  | [], L => .ok L
  | j :: js, L => (j.run L).bind (runJobs js)

/-- Two instructions a scheduler may run side by side. -/
def Job.Apart (j j' : Job) : Prop := Independent j.env j'.env j.accts j'.accts

end Verif.Spec
