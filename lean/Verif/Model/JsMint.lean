import Verif.Model.Js
import Verif.Model.Mint

/-!
# Minting with the JavaScript client

clients/js/asset/src/{initialize,write,mint}.ts and the generated builders they call. The generated
builders list the same accounts with the same flags as those of the Rust client (`Call.metas`): an
account left out is the program id, an account given as a signer signs. The system program is always
the default one. Umi's group of transaction builders is the list of the instructions; how they are
put together in transactions is left out.
-/

namespace Verif

/-- The part of umi's `Context` that is used: the default identity and payer. -/
structure JsContext where
  identity : Key
  payer : Key

/-- `DEFAULT_CHUNK_SIZE` — write.ts:12. -/
def jsChunkSize : Nat := 850

/-- The chunks of `write` — write.ts:40-55: `Math.ceil(length / size)` Writes, the first overwrites. -/
def jsWrites (size : Nat) (data : Bytes) : List WriteInput :=
  (List.range ((data.length + size - 1) / size)).map fun i =>
    ⟨i == 0, slice data (i * size) (min ((i + 1) * size) data.length - i * size)⟩

/-- `allocate` of the generated client — generated/instructions/allocate.ts:72-139: the system
program is filled in only when there is a payer. -/
def jsAllocate (asset : Key) (payer : Option Key) (x : ExtInput) : Call :=
  .allocate asset payer (payer.map fun _ => Key.system) x

/-- `initialize` — initialize.ts:14-51: the data in the Allocate, or, when it is longer than a chunk,
an Allocate without data followed by Writes. -/
def jsInitialize (ctx : JsContext) (asset : Key) (payer : Option Key) (v : JsExt) :
    Except Err (List Call) := do
  let data ← jsWriteExt v
  -- `['length', u32()]`
  if 4294967296 ≤ data.length then .error .panic
  if jsChunkSize < data.length then
    return jsAllocate asset payer ⟨v.type, UInt32.ofNat data.length, none⟩ ::
      (jsWrites jsChunkSize data).map fun w =>
        .write asset (payer.getD ctx.payer) Key.system w
  else return [jsAllocate asset payer ⟨v.type, UInt32.ofNat data.length, some data⟩]

/-- The input of `mint` — generated/instructions/create.ts:42-77. The flag of the authority tells
whether it is given as a signer. -/
structure JsMintArgs where
  asset : Key
  authority : Option (Key × Bool)
  owner : Option Key
  group : Option Key
  groupAuthority : Option Key
  payer : Option Key
  name : Bytes
  standard : Option Standard
  isMutable : Option Bool
  extensions : List JsExt

/-- `initialize` for every extension — mint.ts:27-36. -/
def jsInitializeAll (ctx : JsContext) (asset : Key) (payer : Option Key) :
    List JsExt → Except Err (List Call)
  | [] => .ok []
  | v :: vs => do
    let c ← jsInitialize ctx asset payer v
    let cs ← jsInitializeAll ctx asset payer vs
    return c ++ cs

/-- The arguments of the Create with their defaults — generated/instructions/create.ts:92-99. -/
def JsMintArgs.input (x : JsMintArgs) : CreateInput :=
  ⟨x.name, x.standard.getD .nonFungible, x.isMutable.getD true, none⟩

/-- The Create of `mint` — mint.ts:38-39 and generated/instructions/create.ts:106-199. The identity of
the context signs when it stands in for the authority. -/
def jsCreate (ctx : JsContext) (x : JsMintArgs) : Call :=
  .create x.asset (x.authority.getD (ctx.identity, true)) (x.owner.getD ctx.identity) x.group
    x.groupAuthority x.payer (x.payer.map fun _ => Key.system) x.input

/-- `mint` — mint.ts:14-40. -/
def jsMint (ctx : JsContext) (x : JsMintArgs) : Except Err (List Call) := do
  let cs ← jsInitializeAll ctx x.asset x.payer x.extensions
  return cs ++ [jsCreate ctx x]

end Verif
