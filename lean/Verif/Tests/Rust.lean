import Verif.Model.Builders
import Verif.Model.Json
import Verif.Tests.Base

/-!
# Tests of the Rust client

clients/rust/asset/tests: create.rs, handover.rs, mint.rs, update.rs, properties/mod.rs and
royalties/mod.rs, act by act. `context.payer` is `identity`; the accounts are read with the functions of
the types crate. The addresses in the fixtures are `k 11` and following.
-/

namespace Verif.Tests

open Verif Verif.Ex

/-- A builder of the client with its setters, `instruction()`, and a transaction of its own. -/
def rust (x : Kind) (ss : List Setting) : Build := one (builderInstruction false prog x ss)

/-- The setters of `CreateBuilder` all the tests use. -/
def rustCreate (asset authority : Key) (name : String) : List Setting :=
  [.asset asset, .authority authority false, .owner identity, .payer (some identity) false,
    .systemProgram (some Key.system), .name (txt name)]

/-- The setters of `UpdateBuilder` the tests use. -/
def rustUpdate (asset : Key) (x : ExtInput) : List Setting :=
  [.asset asset, .authority identity true, .payer (some identity) false,
    .systemProgram (some Key.system), .extension x]

/-- An `ExtensionInput` with its data and the length of it, and a number added to that. -/
def input (t : ExtType) (data : Bytes) (plus : Nat := 0) : ExtInput :=
  ⟨t, UInt32.ofNat (data.length + plus), some data⟩

/-- `Asset::load` and the five assertions about the header, then those about the extensions. -/
def loaded (authority : Key) (types : List ExtType → Bool) (d : Bytes) : Bool :=
  hDisc d == 1 && hState d == stateUnlocked && hStandard d == Standard.toU8 .nonFungible &&
    hAuthority d == authority && hOwner d == identity &&
    (match getExtensions d with | .ok l => types l | .error _ => false)

/-- `Asset::get::<T>(account_data).unwrap()` with assertions. -/
def gets {α : Type} (t : ExtType) (r : Bytes → Except Err α) (f : α → Bool) (d : Bytes) : Bool :=
  match assetGet t d with
  | .ok (some p) => (match r p with | .ok a => f a | .error _ => false)
  | _ => false

/-- `AttributesBuilder` with a hat. -/
def hat : Bytes := pairsBuilderAdd [] (txt "hat") (txt "nifty")

/-- Only the extensions. -/
def noExtensions (d : Bytes) : Bool :=
  match getExtensions d with | .ok l => l.isEmpty | .error _ => false

/-- The hat read back. -/
def hasHat (d : Bytes) : Bool :=
  gets .attributes readPairList (fun l => l == [(txt "hat", txt "nifty")]) d

/-- create — create.rs:23-72. -/
def rust_create_1 : List Act := [
    .ok (rust .create (rustCreate (k 2) identity "name")),
    .reads (k 2) (loaded identity List.isEmpty)]

theorem rust_create_1_passes : passes rust_create_1 = true := by decide +kernel

/-- create_with_extension — create.rs:74-155. -/
def rust_create_2 : List Act := [
    .ok (rust .allocate [.asset (k 2), .payer (some identity) false, .systemProgram (some Key.system),
      .extension (input .attributes hat)]),
    .ok (rust .create (rustCreate (k 2) identity "name")),
    .reads (k 2) (loaded identity fun l => l.length == 1),
    .reads (k 2) hasHat]

theorem rust_create_2_passes : passes rust_create_2 = true := by decide +kernel

/-- create_with_invalid_extension_length_fails — create.rs:157-204. -/
def rust_create_3 : List Act := [
    .failsWith (rust .create (rustCreate (k 2) identity "name" ++
      [.extensions [⟨.attributes, 1, some hat⟩]])) (.asset .extensionLengthInvalid)]

theorem rust_create_3_passes : passes rust_create_3 = true := by decide +kernel

/-- create_with_missing_extension_data_fails — create.rs:206-254. -/
def rust_create_4 : List Act := [
    .failsWith (rust .create (rustCreate (k 2) identity "name" ++
      [.extensions [input .attributes hat 100]])) (.asset .extensionDataInvalid)]

theorem rust_create_4_passes : passes rust_create_4 = true := by decide +kernel

/-- update — update.rs:23-117. -/
def rust_update_1 : List Act := [
    .ok (rust .create (rustCreate (k 2) identity "name")),
    .reads (k 2) noExtensions,
    .ok (rust .update (rustUpdate (k 2) (input .attributes hat))),
    .reads (k 2) (loaded identity fun l => l.length == 1),
    .reads (k 2) hasHat]

theorem rust_update_1_passes : passes rust_update_1 = true := by decide +kernel

/-- update_with_invalid_extension_length_fails — update.rs:119-193. -/
def rust_update_2 : List Act := [
    .ok (rust .create (rustCreate (k 2) identity "name")),
    .reads (k 2) noExtensions,
    .failsWith (rust .update (rustUpdate (k 2) ⟨.attributes, 1, some hat⟩))
      (.asset .extensionLengthInvalid)]

theorem rust_update_2_passes : passes rust_update_2 = true := by decide +kernel

/-- update_with_invalid_extension_data_fails — update.rs:195-269. -/
def rust_update_3 : List Act := [
    .ok (rust .create (rustCreate (k 2) identity "name")),
    .reads (k 2) noExtensions,
    .failsWith (rust .update (rustUpdate (k 2) (input .attributes hat 100)))
      (.asset .extensionDataInvalid)]

theorem rust_update_3_passes : passes rust_update_3 = true := by decide +kernel

/-- `ix.accounts[2].is_signer = false`. -/
def unsign (n : Nat) (i : ClientIx) : ClientIx :=
  { i with metas := i.metas.modify n fun m => { m with signer := false } }

/-- handover_to_nonsigner_fails — handover.rs:21-95. -/
def rust_handover_1 : List Act := [
    .ok (rust .create (rustCreate (k 2) (k 3) "name")),
    .reads (k 2) (loaded (k 3) List.isEmpty),
    .failsWith (one ((builderInstruction false prog .handover
      [.asset (k 2), .authority (k 3) true, .newAuthority (k 4)]).map (unsign 2)))
      .missingRequiredSignature]

theorem rust_handover_1_passes : passes rust_handover_1 = true := by decide +kernel

/-- `mint(ix_args).unwrap()` in one transaction. -/
def rustMint (asset : Key) (exts : List (ExtType × Bytes)) : Build :=
  .ok [Verif.mint prog ⟨asset, identity, none, txt "name", .nonFungible, true, exts⟩]

/-- mint_without_extensions — mint.rs:24-81. -/
def rust_mint_1 : List Act := [
    .ok (rustMint (k 2) []),
    .reads (k 2) (loaded identity List.isEmpty)]

theorem rust_mint_1_passes : passes rust_mint_1 = true := by decide +kernel

/-- fixtures/creators.json. -/
def creatorsFixture : List (Key × Bool × UInt8) :=
  [(k 11, true, 70), (k 12, false, 20), (k 13, false, 5), (k 14, false, 5), (k 15, false, 0)]

/-- mint_with_creators_extension — mint.rs:83-169. -/
def rust_mint_2 : List Act := [
    .ok (rustMint (k 2) [(.creators, (JsonValue.creators creatorsFixture).data)]),
    .reads (k 2) (loaded identity fun l => l == [.creators]),
    .reads (k 2) (gets .creators readCreators fun l =>
      (l.head?.map fun c => (c.address, c.share)) == some (k 11, 70) &&
        (l.getLast?.map fun c => (c.address, c.share)) == some (k 15, 0))]

theorem rust_mint_2_passes : passes rust_mint_2 = true := by decide +kernel

/-- fixtures/royalties-allowlist.json and royalties-denylist.json. -/
def royaltiesFixture (x : RoyaltiesKind) : JsonValue := .royalties x 1000 [k 11, k 12, k 13, k 14]

/-- mint_with_royalties_allowlist — mint.rs:171-248. -/
def rust_mint_3 : List Act := [
    .ok (rustMint (k 2) [(.royalties, (royaltiesFixture .allowlist).data)]),
    .reads (k 2) (loaded identity fun l => l == [.royalties]),
    .reads (k 2) (gets .royalties readRoyalties fun r => r.basisPoints == 1000)]

theorem rust_mint_3_passes : passes rust_mint_3 = true := by decide +kernel

/-- mint_with_royalties_denylist — mint.rs:250-327. -/
def rust_mint_4 : List Act := [
    .ok (rustMint (k 2) [(.royalties, (royaltiesFixture .denylist).data)]),
    .reads (k 2) (loaded identity fun l => l == [.royalties]),
    .reads (k 2) (gets .royalties readRoyalties fun r => r.basisPoints == 1000)]

theorem rust_mint_4_passes : passes rust_mint_4 = true := by decide +kernel

/-- The names of the properties. -/
def propNames (l : List String) (d : Bytes) : Bool :=
  gets .properties readPropList (fun ps => ps.map (·.1) == l.map txt) d

/-- create — properties/mod.rs:19-87. -/
def rust_properties_1 : List Act := [
    .ok (rust .create (rustCreate (k 2) identity "name" ++ [.extensions [input .properties
      (propsBuilderAdd (propsBuilderAdd [] (txt "name") (.text (txt "nifty")))
        (txt "points") (.number 0))]])),
    .reads (k 2) (loaded identity fun l => l.length == 1),
    .reads (k 2) (propNames ["name", "points"])]

theorem rust_properties_1_passes : passes rust_properties_1 = true := by decide +kernel

/-- create_with_multiple — properties/mod.rs:89-176. -/
def rust_properties_2 : List Act := [
    .ok (rust .create (rustCreate (k 2) identity "Asset with extensions" ++ [.extensions [
      input .metadata (metadataBuilderSet (some (txt "NIFTY")) none none none),
      input .properties (propsBuilderAdd (propsBuilderAdd (propsBuilderAdd [] (txt "name")
        (.text (txt "nifty"))) (txt "points") (.number 0)) (txt "active") (.boolean 1)),
      input .attributes (pairsBuilderAdd [] (txt "type") (txt "solid"))]])),
    .reads (k 2) (loaded identity fun l => l.length == 3),
    .reads (k 2) (propNames ["name", "points", "active"])]

theorem rust_properties_2_passes : passes rust_properties_2 = true := by decide +kernel

/-- create — royalties/mod.rs:18-90. -/
def rust_royalties_1 : List Act := [
    .ok (rust .create (rustCreate (k 2) identity "name" ++ [.extensions [input .royalties
      (royaltiesBuilderSet 500 (opBuild 3 (keysBuilderSet [] 2 [Key.system])))]])),
    .reads (k 2) (loaded identity fun l => l.length == 1),
    .reads (k 2) (gets .royalties readRoyalties fun r =>
      r.basisPoints == 500 && (match r.constraint with | .ownedBy .. => true | _ => false))]

theorem rust_royalties_1_passes : passes rust_royalties_1 = true := by decide +kernel

/-- The tests of the Rust client. -/
def rustTests : List (List Act) :=
  [rust_create_1, rust_create_2, rust_create_3, rust_create_4, rust_update_1, rust_update_2,
    rust_update_3, rust_handover_1, rust_mint_1, rust_mint_2, rust_mint_3, rust_mint_4,
    rust_properties_1, rust_properties_2, rust_royalties_1]

theorem rustTests_pass : AllPass rustTests :=
  .cons rust_create_1_passes <| .cons rust_create_2_passes <| .cons rust_create_3_passes <|
  .cons rust_create_4_passes <| .cons rust_update_1_passes <| .cons rust_update_2_passes <|
  .cons rust_update_3_passes <| .cons rust_handover_1_passes <| .cons rust_mint_1_passes <|
  .cons rust_mint_2_passes <| .cons rust_mint_3_passes <| .cons rust_mint_4_passes <|
  .cons rust_properties_1_passes <| .cons rust_properties_2_passes <|
  .cons rust_royalties_1_passes .nil

end Verif.Tests
