import Verif.Model.JsMint

/-!
# Updating an extension with the JavaScript client

clients/js/asset/src/updateWithBuffer.ts, without its `proxy` option: that only replaces the program
and adds an account at the end. As in `Model/JsMint.lean` a group of transaction builders is the list
of the instructions.
-/

namespace Verif

/-- The input of `updateWithBuffer` — updateWithBuffer.ts:24-28 and
generated/instructions/update.ts:41-54. -/
structure JsUpdateArgs where
  asset : Key
  authority : Option Key
  buffer : Option Key
  group : Option Key
  payer : Option Key
  name : Option Bytes
  isMutable : Option Bool
  extension : JsExt
  chunkSize : Option Nat

/-- `updateWithBuffer` — updateWithBuffer.ts:19-101. `fresh` is the address that `generateSigner`
makes up for the buffer. A chunk size of zero makes `Array.from` throw. -/
def jsUpdateWithBuffer (ctx : JsContext) (fresh : Key) (x : JsUpdateArgs) :
    Except Err (List Call) := do
  let data ← jsWriteExt x.extension
  let size := x.chunkSize.getD jsChunkSize
  let authority := x.authority.getD ctx.identity
  -- `['length', u32()]`
  if 4294967296 ≤ data.length then .error .panic
  if size < data.length then
    if size = 0 then .error .panic
    return [jsAllocate fresh x.payer ⟨x.extension.type, UInt32.ofNat data.length, none⟩] ++
      ((jsWrites size data).map fun w => .write fresh (x.payer.getD ctx.payer) Key.system w) ++
      [.update x.asset authority (some fresh) x.group x.payer (some Key.system)
          ⟨x.name, x.isMutable, none⟩,
        .close fresh (x.payer.getD ctx.payer)]
  else
    return [.update x.asset authority x.buffer x.group x.payer (x.payer.map fun _ => Key.system)
      ⟨x.name, x.isMutable, some ⟨x.extension.type, UInt32.ofNat data.length, some data⟩⟩]

end Verif
