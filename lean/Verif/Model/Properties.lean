import Verif.Model.Extensions

/-!
# Looking up properties by name

`Properties::get::<T>` and `PropertiesMut::get::<T>` cast the boxed value found under the name to `T`
without looking at its type. The model follows the pointers: the value `Number` is a pointer to
eight bytes of the account, `Boolean` a pointer to one byte, and `Text` a prefix string. A `Boolean` taken
for a `Number` (and the other way round) is the same pointer, so the bytes there are read. A `Text`
taken for another type, or another type for a `Text`, has no defined result, as the compiler chooses the order of
the fields and the `Text` is larger: `Err.undef`. So has a `bool` other than 0 and 1, and a read past the
end of the account. (The alignment of the eight bytes is not modelled.)
-/

namespace Verif

/-- The types that implement `Value` — types/src/extensions/properties.rs:203-303. -/
inductive PropType
  | text | number | boolean
  deriving DecidableEq, Repr

/-- A value and the position in the account its pointer leads to: the first byte after the byte of the
type — properties.rs:209-215, 244-249, 278-282. -/
structure Slot where
  value : PropValue
  pos : Nat
  deriving DecidableEq, Repr

/-- `Properties::from_bytes` as `readProps`, with the positions; the bytes begin at `o` —
properties.rs:48-58, 111-121. -/
def propSlots : Nat → Bytes → Nat → Except Err (List (Bytes × Slot))
  | 0, _, _ => .error .diverge
  | fuel + 1, b, o =>
    if b.isEmpty then .ok []
    else do
      let (name, n) ← readStr b
      let (value, m) ← readPropValue (b.drop n)
      let rest ← propSlots fuel (b.drop (n + m)) (o + n + m)
      return (name, ⟨value, o + n + 1⟩) :: rest

/-- The reference `&T` made of the pointer, followed to the value — properties.rs:23-34, 82-93 and the
`Deref`s in 233-303. `mem` is the data of the account. -/
def castSlot (mem : Bytes) (s : Slot) : PropType → Except Err PropValue
  | .text =>
    match s.value with
    | .text t => .ok (.text t)
    | _ => .error .undef
  | .number =>
    match s.value with
    | .text _ => .error .undef
    | _ =>
      if s.pos + 8 ≤ mem.length then .ok (.number (leNat (slice mem s.pos 8))) else .error .undef
  | .boolean =>
    match s.value with
    | .text _ => .error .undef
    | _ => if byteAt mem s.pos ≤ 1 then .ok (.boolean (byteAt mem s.pos)) else .error .undef

/-- `Properties::get::<T>(name)` — properties.rs:23-34. -/
def slotGet (mem : Bytes) (slots : List (Bytes × Slot)) (t : PropType) (name : Bytes) :
    Except Err (Option PropValue) :=
  match slots.find? fun p => p.1 = name with
  | none => .ok none
  | some p => (castSlot mem p.2 t).map some

/-- `Asset::get::<Properties>(data)` followed by `get::<T>(name)` — types/src/state/asset.rs:101-119,
properties.rs:23-34. An asset without properties has none of them. -/
def assetProperty (d : Bytes) (t : PropType) (name : Bytes) : Except Err (Option PropValue) := do
  match ← assetGetMut .properties d with
  | none => return none
  | some (off, p) => do
    let slots ← propSlots (p.length + 1) p off
    slotGet d slots t name

/-- `PropertiesMut::remove`: the values are a vector of their own, so that the bytes of the account
stay as they are — properties.rs:95-97. -/
def slotRemove (mem : Bytes) (slots : List (Bytes × Slot)) (name : Bytes) :
    Bytes × List (Bytes × Slot) :=
  (mem, slots.filter fun p => p.1 ≠ name)

end Verif
