import Verif.Model.Program

/-!
# Rent

What it means for an account to hold the rent for its size, and for a ledger to be one of the
chain: all lamports together fit 64 bits.
-/

namespace Verif.Spec

open Verif

/-- The account holds no data, or at least the rent for its data. -/
def Solvent (rent : Nat → Nat) (L : Ledger) (x : Key) : Prop :=
  (L x).data = [] ∨ rent (L x).data.length ≤ (L x).lamports

instance (rent : Nat → Nat) (L : Ledger) (x : Key) : Decidable (Solvent rent L x) :=
  inferInstanceAs (Decidable (_ ∨ _))

/-- The account holds no data, or exactly the rent for its data. -/
def Thrifty (rent : Nat → Nat) (L : Ledger) (x : Key) : Prop :=
  (L x).data = [] ∨ (L x).lamports = rent (L x).data.length

instance (rent : Nat → Nat) (L : Ledger) (x : Key) : Decidable (Thrifty rent L x) :=
  inferInstanceAs (Decidable (_ ∨ _))

/-- Whatever accounts are looked at, their lamports add up to a `u64`. -/
def Supply (L : Ledger) : Prop :=
  ∀ ks : List Key, ks.Nodup → (ks.map fun x => (L x).lamports).sum < 2 ^ 64

/-- More bytes never cost less rent. -/
def Rising (rent : Nat → Nat) : Prop := ∀ m n, m ≤ n → rent m ≤ rent n

/-- What an account of `len` bytes and `lamports` holds once it has `size` bytes: an account that
shrinks keeps the rent for what is left (nothing when nothing is left), any other is topped up to
the rent. -/
def afterResize (rent : Nat → Nat) (len lamports size : Nat) : Nat :=
  if size < len then (if size = 0 then 0 else rent size) else max lamports (rent size)

/-- The account that an instruction resizes, and the account that pays for it or receives what is
left over. -/
def resizing : Instr → List Key → Option (Key × Key)
  | .update _, a :: _ :: _ :: _ :: p :: _ => some (a, p)
  | .remove _, a :: _ :: _ :: p :: _ => some (a, p)
  | .resize _, a :: _ :: p :: _ => some (a, p)
  | .write _, a :: p :: _ => some (a, p)
  | _, _ => none

/-- The accounts named in an instruction as those that pay or receive lamports. -/
def purse : Instr → List Key → List Key
  | .close, _ :: r :: _ => [r]
  | .burn, _ :: s :: r :: _ => [s, r]
  | .create _, _ :: _ :: _ :: _ :: _ :: p :: _ => [p]
  | .allocate _, _ :: p :: _ => [p]
  | i, accts => (resizing i accts).toList.map (·.2)

/-- Histories in which other programs respect the rent as well: an account that held its rent
holds its rent after a transaction of another program, and no lamports appear. -/
inductive RentSteps (program : Key) (rent : Nat → Nat) : Ledger → Ledger → Prop
  | refl (L : Ledger) : RentSteps program rent L L
  | instr {L L' L'' : Ledger} (E : Env) (accts : List Key) (i : Instr)
      (hs : RentSteps program rent L L') (hp : E.program = program) (hr : E.rent = rent)
      (h : execute E L' accts i = .ok L'') : RentSteps program rent L L''
  | other {L L' L'' : Ledger} (hs : RentSteps program rent L L')
      (hr : ∀ x, Solvent rent L' x → Solvent rent L'' x) (hu : Supply L'') :
      RentSteps program rent L L''

end Verif.Spec
