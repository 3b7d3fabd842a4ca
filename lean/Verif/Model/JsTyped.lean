import Verif.Model.JsCalls
import Verif.Model.JsUpdate

/-!
# Values in the instruction itself, with the JavaScript client

clients/js/asset/src/{create,allocate,update}.ts: the values of extensions are serialised and handed to
the generated builders (`jsInstruction`). The builder of a single instruction is the instruction.
-/

namespace Verif

/-- `{ extensionType, length: data.length, data }` — create.ts:28-37, allocate.ts:17-28,
update.ts:30-39. The type of a value of a type is that type. -/
def jsTyped (v : JsExt) : Except Err JsExtInput := do
  let data ← jsWriteExt v
  return ⟨v.type, data.length, some data⟩

/-- `input.extensions.map(…)` — create.ts:28-37. -/
def jsTypedAll : List JsExt → Except Err (List JsExtInput)
  | [] => .ok []
  | v :: vs => do
    let y ← jsTyped v
    let ys ← jsTypedAll vs
    return y :: ys

/-- An optional value. -/
def jsTypedOption {α β : Type} (f : α → Except Err β) : Option α → Except Err (Option β)
  | none => .ok none
  | some v => do
    let y ← f v
    return some y

/-- `create` — create.ts:15-43. The list of extensions may be left out: it is an argument of its own,
the field of the request is not looked at. -/
def jsCreateTyped (programId : Key) (ctx : JsContext) (x : JsMintArgs) (exts : Option (List JsExt)) :
    Except Err ClientIx := do
  let ys ← jsTypedOption jsTypedAll exts
  jsInstruction programId ctx (.create x.asset x.authority x.owner x.group x.groupAuthority x.payer none
    x.name x.standard x.isMutable ys)

/-- `allocate` — allocate.ts:8-29. -/
def jsAllocateTyped (programId : Key) (ctx : JsContext) (asset : Key) (payer : Option Key) (v : JsExt) :
    Except Err ClientIx := do
  let y ← jsTyped v
  jsInstruction programId ctx (.allocate asset payer none y)

/-- `update` — update.ts:17-65 without the option `proxy`, which is `jsProxied`. The extension may be
left out: it is an argument of its own, the field of the request is not looked at. -/
def jsUpdateTyped (programId : Key) (ctx : JsContext) (x : JsUpdateArgs) (ext : Option JsExt) :
    Except Err ClientIx := do
  let y ← jsTypedOption jsTyped ext
  jsInstruction programId ctx (.update x.asset x.authority x.buffer x.group x.payer none x.name
    x.isMutable y)

end Verif
