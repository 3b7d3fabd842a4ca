import Verif.Model.Mint

/-!
# The macros of the Rust client

clients/rust/asset/src/impls.rs: helpers for programs that call Allocate and Write themselves. An
instruction is its account metas and data; the accounts handed over with it are the `…Infos`.
-/

namespace Verif

/-- `allocate_instruction_data!` with data — impls.rs:86-109. -/
def allocateData (t : ExtType) (length : Nat) (data : Bytes) : Bytes :=
  [4] ++ [t.tag] ++ toLE 4 length ++ [1] ++ toLE 4 data.length ++ data

/-- `allocate_instruction_data!` without data — impls.rs:111-128: the data is appended later. -/
def allocateSpaceData (t : ExtType) (length : Nat) : Bytes :=
  [4] ++ [t.tag] ++ toLE 4 length ++ [1] ++ toLE 4 length

/-- `allocate_update_data_length!` — impls.rs:135-149. It panics when the data is too short. -/
def allocateUpdateLength (length : Nat) (d : Bytes) : Except Err Bytes :=
  let lengthIndex := 1 + 1
  let dataLengthIndex := lengthIndex + 4 + 1
  if d.length < dataLengthIndex + 4 then .error .panic
  else .ok (splice (splice d lengthIndex (toLE 4 length)) dataLengthIndex (toLE 4 length))

/-- `AllocateCpiAccounts::invoke_signed` — impls.rs:24-64: the instruction that is invoked. -/
def allocateCpi (program asset : Key) (payer sys : Option Key) (data : Bytes) : ClientIx :=
  ⟨[metaRw asset true,
      match payer with | some p => metaRw p true | none => metaRo program false,
      match sys with | some s => metaRo s false | none => metaRo program false], data⟩

/-- The accounts handed over by `AllocateCpiAccounts::invoke_signed` — impls.rs:49-57. -/
def allocateInfos (programInfo asset : Key) (payer sys : Option Key) : List Key :=
  [programInfo, asset] ++ payer.toList ++ sys.toList

/-- `CPI_LIMIT` — impls.rs:166. -/
def cpiLimit : Nat := 1280

/-- `ACCOUNT_METAS_SIZE` — impls.rs:167. -/
def accountMetasSize : Nat := 106

/-- The data of the Writes: the `while` loop — impls.rs:207-230. The fuel is the number of bytes. -/
def macroWrites (data : Bytes) : Nat → Nat → List Bytes
  | 0, _ => []
  | fuel + 1, total =>
    if total < data.length then
      let n := min (data.length - total) (cpiLimit - 2 - accountMetasSize)
      (([12] ++ [0] ++ toLE 4 n ++ slice data total n) : Bytes) ::
        macroWrites data fuel (total + n)
    else []

/-- `allocate_and_write!` — impls.rs:163-231: the instructions that are invoked, in order. -/
def allocateAndWrite (asset payer sys : Key) (t : ExtType) (data : Bytes) : List ClientIx :=
  let n := min data.length (cpiLimit - 11 - accountMetasSize)
  let metas := [metaRw asset true, metaRw payer true, metaRo sys false]
  ⟨metas, [4] ++ [t.tag] ++ toLE 4 data.length ++ [1] ++ toLE 4 n ++ data.take n⟩ ::
    (macroWrites data data.length n).map fun d => ⟨metas, d⟩

/-- The accounts handed over by `allocate_and_write!` with every call — impls.rs:183-188. -/
def allocateAndWriteInfos (programInfo asset payer sys : Key) : List Key :=
  [programInfo, asset, payer, sys]

end Verif
