import Verif.Spec.Payload

/-!
# When extension data can be read

A string is stored as its length in one byte followed by its bytes. Attributes and Links are pairs
of strings, Properties are pairs of a string and a tagged value, a Blob is a string (the content
type) followed by anything, Metadata are three or four strings.
-/

namespace Verif.Spec

open Verif

/-- A string with its length in front. -/
def prefixed (s : Bytes) : Bytes := UInt8.ofNat s.length :: s

/-- A string that has a length of one byte. -/
def ShortString (s : Bytes) : Prop := s.length ≤ 255

/-- The bytes of pairs of strings. -/
def pairsData (l : List (Bytes × Bytes)) : Bytes := l.flatMap fun x => prefixed x.1 ++ prefixed x.2

/-- The bytes of a property value: a tag and the value. -/
def valueData : PropValue → Bytes
  | .text s => 0 :: prefixed s
  | .number n => 1 :: toLE 8 n
  | .boolean b => [2, b]

/-- The value can be stored: short strings and 64-bit numbers. -/
def ValueFits : PropValue → Prop
  | .text s => ShortString s
  | .number n => n < 18446744073709551616
  | .boolean _ => True

/-- The bytes of properties. -/
def propertiesData (l : List (Bytes × PropValue)) : Bytes :=
  l.flatMap fun x => prefixed x.1 ++ valueData x.2

/-- The data of an extension of type `t` can be read. -/
def Readable (t : ExtType) (p : Bytes) : Prop :=
  match t with
  | .none => False
  | .attributes | .links =>
    ∃ l : List (Bytes × Bytes), (∀ x ∈ l, ShortString x.1 ∧ ShortString x.2) ∧ p = pairsData l
  | .blob => ∃ contentType content, ShortString contentType ∧ p = prefixed contentType ++ content
  | .creators => p.length % 34 = 0
  | .metadata => ∃ symbol description uri rest, ShortString symbol ∧ ShortString description ∧ ShortString uri ∧
      p = prefixed symbol ++ (prefixed description ++ (prefixed uri ++ rest)) ∧
      (rest = [] ∨ ∃ image more, ShortString image ∧ rest = prefixed image ++ more)
  | .grouping => 16 ≤ p.length ∧ p.length ≤ 48
  | .royalties => 8 ≤ p.length ∧ ∃ c, parseConstraint (p.drop 8) = .ok c
  | .manager => 33 ≤ p.length
  | .proxy => p.length = 97
  | .properties => ∃ l : List (Bytes × PropValue), (∀ x ∈ l, ShortString x.1 ∧ ValueFits x.2) ∧
      p = propertiesData l
  | .bucket => True

end Verif.Spec
