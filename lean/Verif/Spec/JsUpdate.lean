import Verif.Model.JsUpdate
import Verif.Spec.JsMint

/-!
# Updates with the JavaScript client
-/

namespace Verif.Spec

open Verif

/-- The value is too long for one chunk. -/
def JsUpdateArgs.Chunked (x : JsUpdateArgs) : Prop :=
  x.chunkSize.getD jsChunkSize < (rustWrites x.extension).length

/-- The name and mutability asked for. -/
def JsUpdateArgs.title (x : JsUpdateArgs) : UpdateInput := ⟨x.name, x.isMutable, none⟩

/-- The asset with the value stored as `q`, and the name and mutability asked for. -/
def JsUpdateArgs.result (x : JsUpdateArgs) (A : Asset) (q : Bytes) : Asset :=
  { A.retitled (JsUpdateArgs.title x) with exts := setExt x.extension.type q A.exts }

end Verif.Spec
