import Verif.Spec.Layout

/-!
# Reading an extension from an account with any content

The reader follows the end offsets of the extension headers from offset 168 on, whatever the
account contains. On accounts that store a list of extensions this is `lookup`
(`reads_lookup` in `Verif.Lemmas.Reads`).
-/

namespace Verif.Spec

open Verif

/-- Following the headers from `off` on, the first extension of type `t` has data `p`
(`some p`), or the end is reached without one (`none`). -/
inductive ReadsFrom (d : Bytes) (t : ExtType) : Nat → Option Bytes → Prop
  | full {off : Nat} (h : d.length < off + 16) : ReadsFrom d t off none
  | stop {off : Nat} (h : off + 16 ≤ d.length) (h0 : leNat (slice d off 4) = 0) :
      ReadsFrom d t off none
  | here {off n : Nat} (h0 : leNat (slice d off 4) = t.toU32)
      (h1 : leNat (slice d (off + 4) 4) = n) (h : off + 16 + n ≤ d.length) :
      ReadsFrom d t off (some (slice d (off + 16) n))
  | next {off : Nat} {r : Option Bytes} (h : off + 16 ≤ d.length)
      (h0 : leNat (slice d off 4) ≠ 0) (ht : leNat (slice d off 4) ≠ t.toU32)
      (hr : ReadsFrom d t (leNat (slice d (off + 8) 4)) r) : ReadsFrom d t off r

/-- What is read as the extension of type `t`. -/
def Reads (d : Bytes) (t : ExtType) (r : Option Bytes) : Prop := ReadsFrom d t 168 r

end Verif.Spec
