import Verif.Model.Js
import Verif.Model.Bridge

/-!
# Searching accounts with the JavaScript clients

`getAssetGpaBuilder` — clients/js/asset/src/index.ts:66-98, and `getVaultGpaBuilder` —
clients/js/bridge/src/generated/accounts/vault.ts:139-162. The builder is umi's `gpaBuilder`, which
is not in the repository: `whereField` turns a field into a filter, an offset and the serialised
value; the node returns the accounts of the program whose bytes at the offset are these; and
`getDeserialized` reads them all, and throws if one of them cannot be read. How many filters a node
accepts (four, as a rule) is left out.
-/

namespace Verif

/-- `scalarEnum` of umi, writing: a number after the last one throws. -/
def jsPutScalar (last n : Nat) : Except Err Bytes :=
  if last < n then .error .panic else .ok [UInt8.ofNat n]

/-- `string({ size })` of umi, writing: the bytes of the text, cut or filled with zeros. -/
def jsPutFixed (size : Nat) (s : Bytes) : Bytes := (s ++ zeros size).take size

/-- A field to search for, and its value — index.ts:73-84. Numbers stand for the enumerators of
`Discriminator`, `State` and `Standard`; a name is given by its bytes in UTF-8. -/
inductive SearchField
  | discriminator (n : Nat)
  | state (n : Nat)
  | standard (n : Nat)
  | isMutable (b : Bool)
  | owner (k : Key)
  | group (o : Option Key)
  | authority (k : Key)
  | delegate (o : Option Key)
  | roles (rs : List Role)
  | name (s : Bytes)

/-- The filter for a field — index.ts:86-95. -/
def SearchField.filter : SearchField → Except Err (Nat × Bytes)
  | .discriminator n => (jsPutScalar 1 n).map fun b => (0, b)
  | .state n => (jsPutScalar 1 n).map fun b => (1, b)
  | .standard n => (jsPutScalar 3 n).map fun b => (2, b)
  | .isMutable b => .ok (3, jsPutBool b)
  | .owner k => .ok (4, k.1)
  | .group o => .ok (36, (jsEncodeKey o).1)
  | .authority k => .ok (68, k.1)
  | .delegate o => .ok (100, (jsEncodeKey o).1)
  | .roles rs => match jsEncodeRoles rs with
    | some b => .ok (132, [b])
    | none => .error .panic
  | .name s => .ok (133, jsPutFixed 35 s)

/-- The filters for several fields. -/
def jsFilters {α : Type} (f : α → Except Err (Nat × Bytes)) : List α → Except Err (List (Nat × Bytes))
  | [] => .ok []
  | x :: xs => do
    let y ← f x
    let ys ← jsFilters f xs
    return y :: ys

/-- `memcmp`: the bytes at the offset are these (and there are as many). Not repository code. -/
def memcmp (d : Bytes) (x : Nat × Bytes) : Bool := slice d x.1 x.2.length == x.2

/-- `getProgramAccounts`: of the accounts `ks` that exist, those of the program that match. Not
repository code. -/
def programAccounts (L : Ledger) (program : Key) (ks : List Key) (xs : List (Nat × Bytes)) : List Key :=
  ks.filter fun k => (L k).owner = program && xs.all (memcmp (L k).data)

/-- Reading all of them. -/
def jsReadAll {α : Type} (read : Bytes → Except Err α) (L : Ledger) : List Key → Except Err (List (Key × α))
  | [] => .ok []
  | k :: ks => do
    let v ← read (L k).data
    let vs ← jsReadAll read L ks
    return (k, v) :: vs

/-- `getAssetGpaBuilder(context).whereField(…)….getDeserialized()` — index.ts:66-98. -/
def jsSearch (dec : Bytes → Bytes) (L : Ledger) (program : Key) (ks : List Key)
    (fs : List SearchField) : Except Err (List (Key × JsAsset)) := do
  let xs ← jsFilters SearchField.filter fs
  jsReadAll (jsAsset dec) L (programAccounts L program ks xs)

/-- A field of a vault and its value — vault.ts:145-151. -/
inductive VaultField
  | state (n : Nat)
  | bump (n : Nat)
  | mint (k : Key)
  | assetBump (n : Nat)

/-- The filter for it — vault.ts:153-157. -/
def VaultField.filter : VaultField → Except Err (Nat × Bytes)
  | .state n => (jsPutScalar 1 n).map fun b => (1, b)
  | .bump n => (jsPutNum 1 n).map fun b => (2, b)
  | .mint k => .ok (3, k.1)
  | .assetBump n => (jsPutNum 1 n).map fun b => (35, b)

/-- The filters of a search for vaults: the discriminator is always among them — vault.ts:161. -/
def vaultFilters (fs : List VaultField) : Except Err (List (Nat × Bytes)) := do
  let xs ← jsFilters VaultField.filter fs
  return (0, [1]) :: xs

end Verif
