import Verif.Spec.Mints
import Verif.Spec.Census
import Verif.Spec.Accepts

/-!
# Where assets and members come from

Histories, and three calls that make an asset without Create.
-/

namespace Verif.Spec

open Verif

/-- Histories of instructions that satisfy `P`, and of whatever other programs do. -/
inductive StepsBy (program : Key) (P : Env → Instr → Prop) : Ledger → Ledger → Prop
  | refl (L : Ledger) : StepsBy program P L L
  | instr {L L' L'' : Ledger} (E : Env) (accts : List Key) (i : Instr)
      (hl : StepsBy program P L L') (hp : E.program = program)
      (hf : ∀ k, E.origLen k = (L' k).data.length) (hP : P E i)
      (h : execute E L' accts i = .ok L'') : StepsBy program P L L''
  | foreign {L L' L'' : Ledger} (hl : StepsBy program P L L') (h : Foreign program L' L'') :
      StepsBy program P L L''

/-- Histories of instructions used as intended, in which account `k` is an asset all the time. -/
inductive Alive (program k : Key) : Ledger → Ledger → Prop
  | refl (L : Ledger) (h : IsAsset program L k) : Alive program k L L
  | tail {L L' L'' : Ledger} (hs : Alive program k L L') (h : ProperStep program L' L'')
      (ha : IsAsset program L'' k) : Alive program k L L''

/-- Histories of instructions used as intended, in which `k` is a member of `g` all the time. -/
inductive Belongs (program g k : Key) : Ledger → Ledger → Prop
  | refl (L : Ledger) (h : Member program L g k) : Belongs program g k L L
  | tail {L L' L'' : Ledger} (hs : Belongs program g k L L') (h : ProperStep program L' L'')
      (ha : Member program L'' g k) : Belongs program g k L L''

/-- The instruction asks to make `k` a member of `g`, in the name of `s`. -/
def AsksToJoin (program : Key) (accts : List Key) (g k s : Key) : Instr → Prop
  | .group => ∃ rest, accts = k :: g :: s :: rest
  | .create _ => ∃ au o ga rest, accts = k :: au :: o :: g :: ga :: rest ∧
      s = if ga = program then au else ga
  | _ => False

/-- `s` signs, and may add members to `g`: it is the authority of the group or its delegate. -/
def Admits (E : Env) (L : Ledger) (g s : Key) : Prop :=
  E.signer s = true ∧ ∃ G p, Stores E.program L g G ∧ IsGroup G p ∧ MayGroup G p s

/-- The first 16 bytes of an account, read as an extension header: type Attributes, `n` bytes of
data, and where they end. Read as an asset they are an initialised, unlocked, non-fungible and
immutable asset, and the beginning of its owner. -/
def forgedHeader (n : Nat) : Bytes := [1, 0, 0, 0] ++ toLE 4 n ++ toLE 4 (16 + n) ++ [0, 0, 0, 0]

/-- The end of an extension of 8 bytes, and after it the header of an extension without data that
says that the next extension is at offset `to`. -/
def detour (to : Nat) : Bytes :=
  List.replicate 8 0 ++ toLE 4 ExtType.links.toU32 ++ toLE 4 0 ++ toLE 4 to ++ List.replicate 4 0

/-- Three calls: announce 8 bytes, write 24 of them, and write `w` where the last header leads. -/
def forgery (k p : Key) (w : Bytes) : List Call :=
  [.allocate k (some p) (some Key.system) ⟨.blob, 8, none⟩,
    .write k p Key.system ⟨false, detour 0⟩,
    .allocate k (some p) (some Key.system) ⟨.attributes, UInt32.ofNat w.length, some w⟩]

/-- What to write in order to copy an account. -/
def copyOf (d : Bytes) : Bytes :=
  d.drop 16 ++ List.replicate (roundUp8 d.length + 24 + 16 - d.length) 0

/-- The royalties of `A`, if any, can be read. -/
def RoyaltiesReadable (A : Asset) : Prop :=
  ∀ p, lookup .royalties A.exts = some p → 8 ≤ p.length ∧ ∃ c, parseConstraint (p.drop 8) = .ok c

/-- A forgery of the account content `d` with the one who pays as the delegate, who then transfers
it to `o`. -/
def perfect (k p o : Key) (g : Option Key) (d : Bytes) : List Call :=
  forgery k p (copyOf (setDelegate d p 255)) ++ [.transfer k p o g]

/-- A member of `g` whose delegate `s` may do everything; without authority and extensions. -/
def memberBytes (g s : Key) : Bytes :=
  List.replicate 36 0 ++ g.1 ++ List.replicate 32 0 ++ s.1 ++ 255 :: List.replicate 35 0

/-- Forging a member of `g` in account `k`, and burning it. -/
def shrink (k p g : Key) : List Call :=
  forgery k p (copyOf (memberBytes g p)) ++ [.burn k p (some p) (some g)]

end Verif.Spec
