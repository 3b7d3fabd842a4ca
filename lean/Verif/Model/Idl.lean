import Verif.Bytes

/-!
# The interface description inside the program binary

include-idl/src/{lib,parse,shrink}.rs and include-idl-cli/src/main.rs: the description of the
program (IDL) is compressed, put into the binary, and read back from there by a tool.
-/

namespace Verif

/-- `IdlType` — include-idl/src/parse.rs:22-27. -/
inductive IdlType
  | anchor | codama
  deriving DecidableEq, Repr

/-- Bytes of an ASCII string. -/
def ascii (s : String) : Bytes := s.toList.map fun c => UInt8.ofNat c.toNat

/-- `IdlType::as_str` — include-idl/src/parse.rs:29-36, with the constants of lines 16-20. -/
def IdlType.text : IdlType → Bytes
  | .anchor => ascii "anchor"
  | .codama => ascii "codama"

/-- `to_lowercase` on ASCII. The only character outside ASCII with a lower case in ASCII is the
Kelvin sign (k), which is in neither name. -/
def lowerByte (b : UInt8) : UInt8 := if 65 ≤ b.toNat ∧ b.toNat ≤ 90 then b + 32 else b

/-- `IdlType::from_str` — include-idl/src/parse.rs:47-57. Bytes that are not UTF-8 are refused by
`from_utf8` before; here they match neither name. -/
def IdlType.parse (s : Bytes) : Option IdlType :=
  if s.map lowerByte = IdlType.anchor.text then some .anchor
  else if s.map lowerByte = IdlType.codama.text then some .codama
  else none

/-- A section header: its name (none if it cannot be read) and `sh_offset`. -/
structure Section where
  name : Option String
  offset : Nat
  deriving DecidableEq, Repr

/-- Library code: `Elf::parse` of goblin reduced to the section headers, the decompression of
flate2 and the JSON reader of serde_json. -/
structure IdlLibs (J : Type) where
  elf : Bytes → Option (List Section)
  inflate : Bytes → Option Bytes
  json : Bytes → Option J

/-- Why reading fails: with an error value or with a panic. -/
inductive IdlErr
  | malformed | panic
  deriving DecidableEq, Repr

/-- `get_section_data_offset` — include-idl/src/parse.rs:104-115. The sums of `usize` wrap. -/
def sectionPointer (b : Bytes) (offset : Nat) : Except IdlErr (Nat × Nat) :=
  let p4 := (offset + 4) % 2 ^ 64
  let p8 := (offset + 8) % 2 ^ 64
  let p16 := (offset + 16) % 2 ^ 64
  if p8 < p4 ∨ b.length < p8 then .error .panic
  else if p16 < p8 ∨ b.length < p16 then .error .panic
  else .ok (leNat (slice b p4 4), leNat (slice b p8 8))

/-- `&buffer[location..location + size]` — include-idl/src/parse.rs:75, 84. -/
def sectionBytes (b : Bytes) (offset : Nat) : Except IdlErr Bytes := do
  let (location, size) ← sectionPointer b offset
  let stop := (location + size) % 2 ^ 64
  if stop < location ∨ b.length < stop then .error .panic
  else .ok (slice b location (stop - location))

/-- `unwrap`. -/
def unwrapIdl {α : Type} : Option α → Except IdlErr α
  | some a => .ok a
  | none => .error .panic

/-- One round of the loop — include-idl/src/parse.rs:69-90. -/
def idlStep {J : Type} (lib : IdlLibs J) (b : Bytes) (st : Option IdlType × Option J)
    (s : Section) : Except IdlErr (Option IdlType × Option J) :=
  if s.name = some ".idl.data" then do
    let z ← sectionBytes b s.offset
    let data ← unwrapIdl (lib.inflate z)
    let j ← unwrapIdl (lib.json data)
    return (st.1, some j)
  else if s.name = some ".idl.type" then do
    let z ← sectionBytes b s.offset
    let t ← unwrapIdl (IdlType.parse z)
    return (some t, st.2)
  else return st

/-- The loop over the section headers. -/
def idlLoop {J : Type} (lib : IdlLibs J) (b : Bytes) :
    List Section → Option IdlType × Option J → Except IdlErr (Option IdlType × Option J)
  | [], st => .ok st
  | s :: ss, st => do
    let st ← idlStep lib b st s
    idlLoop lib b ss st

/-- `parse_idl_from_program_binary` — include-idl/src/parse.rs:61-102. -/
def parseIdl {J : Type} (lib : IdlLibs J) (b : Bytes) : Except IdlErr (IdlType × J) :=
  match lib.elf b with
  | none => .error .malformed
  | some ss => do
    match ← idlLoop lib b ss (none, none) with
    | (some t, some j) => return (t, j)
    | _ => .error .malformed

/-- What the command line tool prints — include-idl-cli/src/main.rs:22-38: the description, that
there is none, or nothing because of a panic. -/
inductive Printed (J : Type)
  | idl (t : IdlType) (j : J)
  | notFound
  | crash
  deriving DecidableEq, Repr

@[inherit_doc Printed]
def printIdl {J : Type} (lib : IdlLibs J) (b : Bytes) : Printed J :=
  match parseIdl lib b with
  | .ok (t, j) => .idl t j
  | .error .malformed => .notFound
  | .error .panic => .crash

/-- What `include_idl!` makes the linker put into a section: a reference to bytes, of which the tool
reads the location in the file and the length — include-idl/src/lib.rs:37-56. The zeros in front are
the first half of the address; the linker keeps the location in the second half. -/
def fatPointer (location : Nat) (bs : Bytes) : Bytes :=
  zeros 4 ++ toLE 4 location ++ toLE 8 bs.length

end Verif
