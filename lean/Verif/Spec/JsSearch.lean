import Verif.Model.JsSearch
import Verif.Spec.Js
import Verif.Spec.WellFormed
import Verif.Spec.Mints

/-!
# What a search asks for
-/

namespace Verif.Spec

open Verif

/-- The asset has the value in the field. No group and no delegate are stored as the default key, a
name is filled with zeros, and of the bits of the roles the first three stand for transfer, lock and
burn; the others must be unset. -/
def Has (A : Asset) : SearchField → Prop
  | .discriminator n => n = 1
  | .state n => A.state.toNat = n
  | .standard n => A.standard.toNat = n
  | .isMutable b => A.mutableByte = if b then 1 else 0
  | .owner k => A.owner = k
  | .group o => A.group = o.getD Key.default
  | .authority k => A.authority = k
  | .delegate o => A.delegate = o.getD Key.default
  | .roles rs => A.roles < 8 ∧ (A.roles &&& 1 ≠ 0 ↔ .transfer ∈ rs) ∧ (A.roles &&& 2 ≠ 0 ↔ .lock ∈ rs) ∧
      (A.roles &&& 4 ≠ 0 ↔ .burn ∈ rs)
  | .name s => A.name = storedName s

/-- The value can be written: enumerators are in range, and the role None is not listed. -/
def Askable : SearchField → Prop
  | .discriminator n => n ≤ 1
  | .state n => n ≤ 1
  | .standard n => n ≤ 3
  | .roles rs => Role.none ∉ rs
  | _ => True

/-- The vault has the value in the field. -/
def VaultHas (v : Vault) : VaultField → Prop
  | .state n => n = if v.active then 1 else 0
  | .bump n => v.bump.toNat = n
  | .mint k => v.mint = k
  | .assetBump n => v.assetBump.toNat = n

/-- Two calls by which `p` makes an asset of `o` that ends with a single byte. -/
def obstacle (k p o : Key) : List Call :=
  [.create k (p, false) o none none (some p) (some Key.system) ⟨[], .nonFungible, true, none⟩,
    .resize k p (p, true) (some Key.system) (.extend 1)]

end Verif.Spec
