import Verif.Model.Header
import Verif.Model.Extensions

/-!
# Finding an extension

What the headers of an account say about where its first extension of a type is. Nothing is assumed
about the account: the headers may be forged.
-/

namespace Verif.Spec

open Verif

/-- In the bytes `e`, which lie at offset `base` of an account, the headers lead from offset `off` to
the data at an offset, or to nothing. Each header consists of a type, a length and the offset of the
next header in the account. Type 0 or the end of the bytes stops the search, and so does an offset
before `base`. -/
inductive First (ty base : Nat) (e : Bytes) : Nat → Option (Nat × Bytes) → Prop
  | here {off n : Nat} (h : off + 16 + n ≤ e.length) (ht : leNat (slice e off 4) = ty)
      (hn : leNat (slice e (off + 4) 4) = n) :
      First ty base e off (some (off + 16, slice e (off + 16) n))
  | next {off b : Nat} {r : Option (Nat × Bytes)} (h : off + 16 ≤ e.length)
      (ht : leNat (slice e off 4) ≠ ty) (hz : leNat (slice e off 4) ≠ 0)
      (hb : leNat (slice e (off + 8) 4) = base + b) (hr : First ty base e b r) : First ty base e off r
  | stop {off : Nat} (h : off + 16 ≤ e.length) (ht : leNat (slice e off 4) ≠ ty)
      (hz : leNat (slice e off 4) = 0) : First ty base e off none
  | back {off : Nat} (h : off + 16 ≤ e.length) (ht : leNat (slice e off 4) ≠ ty)
      (hz : leNat (slice e off 4) ≠ 0) (hb : leNat (slice e (off + 8) 4) < base) :
      First ty base e off none
  | over {off : Nat} (h : e.length < off + 16) : First ty base e off none

/-- The manager of an asset: an extension of type 8, of which the first 32 bytes are the address and
the next one is the roles. -/
def HasManager (d : Bytes) (m : Option Delegate) : Prop :=
  ∃ r, First 8 168 (d.drop 168) 0 r ∧ (∀ o p, r = some (o, p) → 33 ≤ p.length) ∧
    m = r.map fun x => ⟨Key.ofBytes (slice x.2 0 32), byteAt x.2 32⟩

/-- The data of a Grouping extension: size, limit and, in 48 bytes, a delegate. -/
def GroupingIn (p : Bytes) (size limit : Nat) (delegate : Key) : Prop :=
  leNat (slice p 0 8) = size ∧ leNat (slice p 8 8) = limit ∧
  ((16 ≤ p.length ∧ p.length < 48 ∧ delegate = Key.default) ∨
    (p.length = 48 ∧ delegate = Key.ofBytes (slice p 16 32)))

/-- The first Proxy extension of an account: type 9 with 97 bytes, which are a program, the seeds, the
bump and an authority. -/
def HasProxy (d : Bytes) (x : Proxy) : Prop :=
  ∃ o p, First 9 0 d 168 (some (o, p)) ∧ p.length = 97 ∧
    x = ⟨Key.ofBytes (slice p 0 32), slice p 32 32, byteAt p 64, Key.ofBytes (slice p 65 32)⟩

end Verif.Spec
