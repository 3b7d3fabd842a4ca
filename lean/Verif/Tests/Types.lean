import Verif.Model.Properties
import Verif.Examples

/-!
# The unit tests of the types crate

programs/asset/types/src: the `#[cfg(test)]` modules, assertion by assertion. Each is a `Bool`: what the
builders and readers of the model make of the arguments of the test. Literal addresses are `k n`.
-/

namespace Verif.Tests

open Verif Verif.Ex

/-- A literal in plain characters. -/
def lit (s : String) : Bytes := s.toList.map fun c => UInt8.ofNat c.toNat

/-- `operator_type()` of a constraint read back — constraints/mod.rs:131-140. -/
def operatorType : Cst → Nat
  | .and _ => 0
  | .not _ => 1
  | .or _ => 2
  | .ownedBy .. => 3
  | .pubkeyMatch .. => 4
  | .empty => 5

/-- `Constraint::from_bytes(&bytes)` reads a constraint of that type. -/
def hasType (b : Bytes) (t : Nat) : Bool :=
  match parseConstraint b with
  | .ok c => operatorType c == t
  | .error _ => false

/-- `constraint.operator.size()`. -/
def operatorSize (b : Bytes) : Nat := u32At b 4

/-- The value of a reader satisfies the assertions. -/
def got {α : Type} (r : Except Err α) (f : α → Bool) : Bool :=
  match r with
  | .ok a => f a
  | .error _ => false

/-- and.rs:99-114. -/
def unit_and : Bool :=
  hasType (opBuild 0 (listBuilderAdd (listBuilderAdd listBuilderDefault
    (opBuild 3 (keysBuilderSet [] 1 [Key.default]))) (opBuild 3 (keysBuilderSet [] 2 [Key.default])))) 0

/-- empty.rs:65-72. -/
def unit_empty : Bool := hasType (opBuild 5 []) 5

/-- not.rs:84-95. -/
def unit_not : Bool :=
  hasType (opBuild 1 (notBuilderSet [] (opBuild 3 (keysBuilderSet [] 1 [Key.default])))) 1

/-- or.rs:102-117. -/
def unit_or : Bool :=
  hasType (opBuild 2 (listBuilderAdd (listBuilderAdd listBuilderDefault
    (opBuild 3 (keysBuilderSet [] 1 [Key.default]))) (opBuild 3 (keysBuilderSet [] 2 [Key.default])))) 2

/-- owned_by.rs:104-119: the size is that of an `Account` (8 bytes) and of a key. -/
def unit_owned_by : Bool :=
  let b := opBuild 3 (keysBuilderSet [] 1 [Key.default])
  hasType b 3 && operatorSize b == 8 + 32

/-- pubkey_match.rs:103-118. -/
def unit_pubkey_match : Bool :=
  let b := opBuild 4 (keysBuilderSet [] 0 [Key.default])
  hasType b 4 && operatorSize b == 8 + 32

/-- attributes.rs:211-223. -/
def unit_attributes : Bool :=
  got (readPairList (pairsBuilderAdd (pairsBuilderAdd [] (lit "head") (lit "bald")) (lit "hat")
    (lit "wizard"))) fun l => l == [(lit "head", lit "bald"), (lit "hat", lit "wizard")]

/-- creators.rs:228-245. -/
def unit_creators : Bool :=
  got (readCreators (CreatorsBuilder.add {} (k 7) true 100).data) fun l =>
    match l with
    | [c] => c.address == k 7 && podTrue c.verified && c.share == 100
    | _ => false

/-- grouping.rs:220-241; no maximum is zero. -/
def unit_grouping_max_size : Bool :=
  (got (readGrouping (groupingBuilderSet (some 10) none)) fun g => g.size == 0 && g.maxSize == 10) &&
    (got (readGrouping (zeros 48)) fun g =>
      g.size == 0 && g.maxSize == 0 && (nullable g.delegate).isNone)

/-- grouping.rs:243-261. -/
def unit_grouping_delegate : Bool :=
  (got (readGrouping (groupingBuilderSet none (some (k 7)))) fun g => nullable g.delegate == some (k 7)) &&
    (got (readGrouping (groupingBuilderSet none none)) fun g => (nullable g.delegate).isNone)

/-- links.rs:200-224. -/
def unit_links : Bool :=
  let m := lit "https://arweave.net/2eyYRZpFXeXrNyA17Y8QvSfQV9rNkzAqXZa7ko7MBNA"
  let i := lit "https://arweave.net/aFnc6QVyRR-gVx6pKYSFu0MiwijQzFdU4fMSuApJqms"
  got (readPairList (pairsBuilderAdd (pairsBuilderAdd [] (lit "metadata") m) (lit "image") i)) fun l =>
    l == [(lit "metadata", m), (lit "image", i)]

/-- manager.rs:112-133. -/
def unit_manager : Bool :=
  (got (readManager (managerBuilderSet ⟨Key.default, 0⟩)) fun d =>
    (nullable d.address).isNone && d.address == Key.default) &&
    (got (readManager (managerBuilderSet ⟨k 7, allRolesMask⟩)) fun d =>
      (nullable d.address).isSome && d.roles == allRolesMask && d.address == k 7)

/-- metadata.rs:232-248. -/
def unit_metadata_set : Bool :=
  let u := lit "https://arweave.net/62Z5yOFbIeFqvoOl-aq75EAGSDzS-GxpIKC2ws5LVDc"
  got (readMetadata (metadataBuilderSet (some (lit "SMB")) none (some u) none)) fun m =>
    m.symbol == lit "SMB" && m.uri == u

/-- metadata.rs:250-266. -/
def unit_metadata_image : Bool :=
  let u := lit "https://arweave.net/62Z5yOFbIeFqvoOl-aq75EAGSDzS-GxpIKC2ws5LVDc"
  got (readMetadata (metadataBuilderSet (some (lit "SMB")) none none (some u))) fun m =>
    m.symbol == lit "SMB" && m.imageUri == u

/-- metadata.rs:268-285: both readers are `readMetadata`. -/
def unit_metadata_compatibility : Bool :=
  let d := metadataBuilderSet (some (lit "SMB")) none none none
  got (readMetadata (d.take (d.length - 1))) fun m => m.symbol == lit "SMB" && m.imageUri == []

/-- The name and the value of a property read back with a type. -/
def valueOf (mem : Bytes) (l : List (Bytes × Slot)) (t : PropType) (name : String) (v : PropValue) :
    Bool :=
  got (slotGet mem l t (lit name)) fun o => o == some v

/-- properties.rs:467-488. -/
def unit_properties_create : Bool :=
  let d := propsBuilderAdd (propsBuilderAdd (propsBuilderAdd [] (lit "name") (.text (lit "asset")))
    (lit "version") (.number 1)) (lit "alpha") (.boolean 0)
  got (propSlots (d.length + 1) d 0) fun l =>
    l.map (·.1) == [lit "name", lit "version", lit "alpha"] &&
      valueOf d l .text "name" (.text (lit "asset")) &&
      valueOf d l .number "version" (.number 1) &&
      valueOf d l .boolean "alpha" (.boolean 0)

/-- properties.rs:490-507. -/
def unit_properties_remove : Bool :=
  let d := propsBuilderAdd (propsBuilderAdd [] (lit "name") (.text (lit "asset")))
    (lit "version") (.number 1)
  got (propSlots (d.length + 1) d 0) fun l =>
    l.map (·.1) == [lit "name", lit "version"] &&
      (slotRemove d l (lit "name")).2.map (·.1) == [lit "version"]

/-- proxy.rs:185-196. -/
def unit_proxy_set : Bool :=
  got (readProxy (proxyBuilderSet Key.system (Key.ofBytes (List.replicate 32 1)) 254 none)) fun p =>
    p.program == Key.system && p.seeds == List.replicate 32 1 && p.bump == 254 &&
      (nullable p.authority).isNone

/-- proxy.rs:198-218. -/
def unit_proxy_authority : Bool :=
  got (readProxy (proxyBuilderSet Key.system (Key.ofBytes (List.replicate 32 1)) 254 (some (k 7))))
    fun p =>
      p.program == Key.system && p.seeds == List.replicate 32 1 && p.bump == 254 &&
        nullable p.authority == some (k 7)

/-- delegate.rs:139-164. -/
def unit_decode_roles : Bool :=
  decodeRoles 5 == [.transfer, .burn] && decodeRoles 2 == [.lock] && decodeRoles 0 == [.none] &&
    decodeRoles 7 == [.transfer, .lock, .burn]

/-- The unit tests. -/
def unitTests : List Bool :=
  [unit_and, unit_empty, unit_not, unit_or, unit_owned_by, unit_pubkey_match, unit_attributes,
    unit_creators, unit_grouping_max_size, unit_grouping_delegate, unit_links, unit_manager,
    unit_metadata_set, unit_metadata_image, unit_metadata_compatibility, unit_properties_create,
    unit_properties_remove, unit_proxy_set, unit_proxy_authority, unit_decode_roles]

theorem unitTests_pass : unitTests = List.replicate 20 true := by decide +kernel

end Verif.Tests
