import Verif.Model.Ext

/-!
# What a well-formed extension area looks like

An asset account holds its extensions one after the other, starting at offset 168. Each has a
16 byte header (type, length, end offset as 32-bit little-endian integers, and 4 unused bytes)
followed by its data. The header says where the next extension starts.
-/

namespace Verif.Spec

open Verif

/-- Type and data of an extension. -/
abbrev Extn := ExtType × Bytes

/-- From offset `off` on, the account stores exactly the extensions `es`; they end at offset
`e`. -/
inductive Walk (d : Bytes) : Nat → List Extn → Nat → Prop
  | nil {off : Nat} (h : off ≤ d.length) : Walk d off [] off
  | cons {off bnd e : Nat} {t : ExtType} {p : Bytes} {rest : List Extn} (ht : t ≠ .none)
      (h0 : leNat (slice d off 4) = t.toU32) (h1 : leNat (slice d (off + 4) 4) = p.length)
      (h2 : leNat (slice d (off + 8) 4) = bnd) (hb : off + 16 + p.length ≤ bnd)
      (hp : slice d (off + 16) p.length = p) (hr : Walk d bnd rest e) :
      Walk d off ((t, p) :: rest) e

/-- Nothing is stored from offset `e` on: there is no room for a header, or the type there
is zero. -/
def Ends (d : Bytes) (e : Nat) : Prop := d.length < e + 16 ∨ leNat (slice d e 4) = 0

/-- The account stores exactly the extensions `es`, in this order. -/
def HasExts (d : Bytes) (es : List Extn) : Prop := ∃ e, Walk d 168 es e ∧ Ends d e

/-- The next multiple of 8. -/
def roundUp8 (n : Nat) : Nat := (n + 7) / 8 * 8

/-- Like `Walk`, with every extension ending at the first multiple of 8 after its data. -/
inductive Packed (d : Bytes) : Nat → List Extn → Nat → Prop
  | nil {off : Nat} (h : off ≤ d.length) : Packed d off [] off
  | cons {off e : Nat} {t : ExtType} {p : Bytes} {rest : List Extn} (ht : t ≠ .none)
      (h0 : leNat (slice d off 4) = t.toU32) (h1 : leNat (slice d (off + 4) 4) = p.length)
      (h2 : leNat (slice d (off + 8) 4) = roundUp8 (off + 16 + p.length))
      (hp : slice d (off + 16) p.length = p)
      (hr : Packed d (roundUp8 (off + 16 + p.length)) rest e) :
      Packed d off ((t, p) :: rest) e

/-- The account stores exactly the extensions `es`, densely packed, and the first bytes after the last extension are zero, so that there is still no
further extension when the account grows. -/
def CleanExts (d : Bytes) (es : List Extn) : Prop :=
  ∃ e, Packed d 168 es e ∧ leNat (slice d e 4) = 0

/-- Data of the first extension of type `t`. -/
def lookup (t : ExtType) : List Extn → Option Bytes
  | [] => none
  | (t', p) :: rest => if t' = t then some p else lookup t rest

/-- Replace the data of the first extension of type `t`, or append such an extension. -/
def setExt (t : ExtType) (p : Bytes) : List Extn → List Extn
  | [] => [(t, p)]
  | (t', p') :: rest => if t' = t then (t, p) :: rest else (t', p') :: setExt t p rest

/-- Remove the first extension of type `t`. -/
def removeExt (t : ExtType) : List Extn → List Extn
  | [] => []
  | (t', p') :: rest => if t' = t then rest else (t', p') :: removeExt t rest

/-- Where extensions packed from `off` on end. -/
def packedEnd : Nat → List Extn → Nat
  | off, [] => off
  | off, (_, p) :: rest => packedEnd (roundUp8 (off + 16 + p.length)) rest

end Verif.Spec
