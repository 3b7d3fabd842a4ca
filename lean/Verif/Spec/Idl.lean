import Batteries.Data.List.Basic
import Verif.Model.Idl

/-!
# What it means that a binary contains an interface description
-/

namespace Verif.Spec

open Verif

variable {J : Type}

/-- At the offset is a reference to the bytes `bs` of the file: 4 bytes that do not matter, the
location in 4 bytes and the length in 8 bytes. -/
def PointsTo (b : Bytes) (off : Nat) (bs : Bytes) : Prop :=
  ∃ pre junk mid rest x,
    b = pre ++ junk ++ toLE 4 x ++ toLE 8 bs.length ++ rest ∧ pre.length = off ∧ junk.length = 4 ∧
    x < 2 ^ 32 ∧ bs.length < 2 ^ 64 ∧ (∃ end', b = mid ++ bs ++ end') ∧ mid.length = x

/-- The name of a kind, in ASCII. -/
def kindName : IdlType → Bytes
  | .anchor => [97, 110, 99, 104, 111, 114]
  | .codama => [99, 111, 100, 97, 109, 97]

/-- Equal except that the first may have capital Latin letters for small ones. -/
def SameLetters (a b : Bytes) : Prop :=
  List.Forall₂ (fun x y => x.toNat = y.toNat ∧ ¬ (65 ≤ x.toNat ∧ x.toNat ≤ 90) ∨
    65 ≤ x.toNat ∧ x.toNat ≤ 90 ∧ y.toNat = x.toNat + 32) a b

/-- The section says of which kind the description is. -/
def SaysType (b : Bytes) (s : Section) (t : IdlType) : Prop :=
  ∃ bs, PointsTo b s.offset bs ∧ SameLetters bs (kindName t)

/-- The section leads to the description. -/
def SaysIdl (lib : IdlLibs J) (b : Bytes) (s : Section) (j : J) : Prop :=
  ∃ bs data, PointsTo b s.offset bs ∧ lib.inflate bs = some data ∧ lib.json data = some j

/-- The last section of the name is as `P` says. -/
def LastOf (ss : List Section) (name : String) (P : Section → Prop) : Prop :=
  ∃ pre s post, ss = pre ++ s :: post ∧ s.name = some name ∧ P s ∧ ∀ x ∈ post, x.name ≠ some name

/-- Every section of the name is as `P` says. -/
def EachOf (ss : List Section) (name : String) (P : Section → Prop) : Prop :=
  ∀ s ∈ ss, s.name = some name → P s

/-- The offsets are far from the end of the address space. -/
def SaneOffsets (ss : List Section) : Prop := ∀ s ∈ ss, s.offset + 16 < 2 ^ 64

/-- The sections with the description can be read. -/
def Legible (lib : IdlLibs J) (b : Bytes) (ss : List Section) : Prop :=
  EachOf ss ".idl.type" (fun s => ∃ t, SaysType b s t) ∧
  EachOf ss ".idl.data" (fun s => ∃ j, SaysIdl lib b s j)

end Verif.Spec
