import Verif.Spec.Js

/-!
# What the JavaScript client should write

The same bytes as the builders of the Rust types.
-/

namespace Verif.Spec

open Verif

/-- The bit of a role. -/
def roleBit : Role → UInt8
  | .none => 0
  | .transfer => 1
  | .lock => 2
  | .burn => 4

/-- A stored creator. -/
def storedCreator (c : JsCreator) : Creator := ⟨c.address, podBool c.verified, UInt8.ofNat c.share⟩

/-- A stored property value. -/
def storedValue : JsValue → PropValue
  | .text s => .text s
  | .number n => .number n
  | .boolean b => .boolean (podBool b)

/-- The bytes the Rust builders produce for the same value. -/
def rustWrites : JsExt → Bytes
  | .attributes l => l.foldl (fun b x => pairsBuilderAdd b x.1 x.2) []
  | .links l => l.foldl (fun b x => pairsBuilderAdd b x.1 x.2) []
  | .blob ct data => blobBuilderSet ct data
  | .creators cs => creatorsBytes (cs.map storedCreator)
  | .metadata m =>
    metadataBuilderSet (some m.symbol) (some m.description) (some m.uri) (some m.imageUri)
  | .grouping size max d => withMembers (groupingBuilderSet (some max) d) size
  | .royalties bp c => royaltiesBuilderSet bp (buildC c)
  | .manager a rs =>
    managerBuilderSet ⟨a.getD Key.default, rs.foldl (fun m r => m ||| roleBit r) 0⟩
  | .proxy p seeds bump a => proxyBuilderSet p (Key.ofBytes seeds) (UInt8.ofNat bump) a
  | .properties l => l.foldl (fun b x => propsBuilderAdd b x.1 (storedValue x.2)) []
  | .bucket data => bucketBuilderSet data

/-- The value of a property can be stored. -/
def ValueWritable : JsValue → Prop
  | .text s => ShortString s
  | .number n => n < 18446744073709551616
  | .boolean _ => True

/-- The value can be stored: texts of at most 255 bytes, numbers in range, constraints on the three
accounts and not too long, and no role None. -/
def Writable : JsExt → Prop
  | .attributes l | .links l => ∀ x ∈ l, ShortString x.1 ∧ ShortString x.2
  | .blob ct _ => ShortString ct
  | .creators cs => ∀ c ∈ cs, c.share < 256
  | .metadata m => ShortString m.symbol ∧ ShortString m.description ∧ ShortString m.uri ∧
      ShortString m.imageUri
  | .grouping size max _ => size < 18446744073709551616 ∧ max < 18446744073709551616
  | .royalties bp c => bp < 18446744073709551616 ∧ Selectable c ∧ (buildC c).length < 4294967304
  | .manager _ rs => Role.none ∉ rs
  | .proxy _ seeds bump _ => seeds.length = 32 ∧ bump < 256
  | .properties l => ∀ x ∈ l, ShortString x.1 ∧ ValueWritable x.2
  | .bucket _ => True

/-- A property value as it is shown when read back. -/
def rereadValue (text : Bytes → Bytes) : JsValue → JsValue
  | .text s => .text (text s)
  | v => v

/-- The value as it is shown when read back: the default key is no key, roles are listed in order and
once, no role is the role None. -/
def reread (text : Bytes → Bytes) : JsExt → JsExt
  | .attributes l => .attributes (l.map fun x => (text x.1, text x.2))
  | .links l => .links (l.map fun x => (text x.1, text x.2))
  | .blob ct data => .blob (text ct) data
  | .creators cs => .creators cs
  | .metadata m => .metadata ⟨text m.symbol, text m.description, text m.uri, text m.imageUri⟩
  | .grouping s m d => .grouping s m (d.bind shownKey)
  | .royalties bp c => .royalties bp c
  | .manager a rs => .manager (a.bind shownKey)
      (if rs = [] then [.none] else [Role.transfer, .lock, .burn].filter (· ∈ rs))
  | .proxy p s b a => .proxy p s b (a.bind shownKey)
  | .properties l => .properties (l.map fun x => (text x.1, rereadValue text x.2))
  | .bucket data => .bucket data

end Verif.Spec
