import Verif.Model.Js
import Verif.Spec.Creators
import Verif.Spec.Edits
import Verif.Spec.Readable

/-!
# What the JavaScript client should show

The client shows what the program reads: the same creators, attributes, constraints and so on, put as
values of JavaScript. Byte strings of the program are turned into texts.
-/

namespace Verif.Spec

open Verif

/-- A property value as the client shows it. -/
def shownValue (text : Bytes → Bytes) : PropValue → JsValue
  | .text s => .text (text s)
  | .number n => .number n
  | .boolean b => .boolean (podTrue b)

/-- A creator as the client shows it. -/
def shownCreator (c : Creator) : JsCreator := ⟨c.address, podTrue c.verified, c.share.toNat⟩

/-- A key of which the default value stands for no key. -/
def shownKey (k : Key) : Option Key := if k = Key.default then none else some k

/-- The roles the bits 1 (transfer), 2 (lock) and 4 (burn) stand for; without any of the bits a byte
zero stands for the role none. -/
def shownRoles (b : UInt8) : List Role :=
  if b = 0 then [.none]
  else (if b &&& 1 = 0 then [] else [.transfer]) ++ (if b &&& 2 = 0 then [] else [.lock]) ++
    (if b &&& 4 = 0 then [] else [.burn])

/-- What the program reads in the data of an extension, as a value of the client. -/
def shown (text : Bytes → Bytes) (t : ExtType) (p : Bytes) : Except Err JsExt :=
  match t with
  | .none => .error .panic
  | .attributes => (readPairList p).map fun l => .attributes (l.map fun x => (text x.1, text x.2))
  | .links => (readPairList p).map fun l => .links (l.map fun x => (text x.1, text x.2))
  | .blob => (readBlob p).map fun x => .blob (text x.1) x.2
  | .creators => (readCreators p).map fun l => .creators (l.map shownCreator)
  | .metadata => (readMetadata p).map fun m =>
      .metadata ⟨text m.symbol, text m.description, text m.uri, text m.imageUri⟩
  | .grouping => (readGrouping p).map fun g => .grouping g.size g.maxSize (shownKey g.delegate)
  | .royalties => (readRoyalties p).map fun r => .royalties r.basisPoints r.constraint
  | .manager => (readManager p).map fun x => .manager (shownKey x.address) (shownRoles x.roles)
  | .proxy => (readProxy p).map fun x => .proxy x.program x.seeds x.bump.toNat (shownKey x.authority)
  | .properties => (readPropList p).map fun l =>
      .properties (l.map fun x => (text x.1, shownValue text x.2))
  | .bucket => (readBucket p).map .bucket

/-- Every account selector is one of asset, authority and recipient. -/
def Selectable : Cst → Prop
  | .and cs => ∀ c ∈ cs, Selectable c
  | .or cs => ∀ c ∈ cs, Selectable c
  | .not c => Selectable c
  | .ownedBy a _ => a ≤ 2
  | .pubkeyMatch a _ => a ≤ 2
  | .empty => True
termination_by c => sizeOf c

/-- A property value whose boolean, if it is one, is 0 or 1. -/
def PlainValue : PropValue → Prop
  | .boolean b => b = 0 ∨ b = 1
  | _ => True

/-- The data can be read and is of the form the client expects: Metadata with all four strings,
Grouping with a delegate, constraints on the three accounts, booleans 0 or 1. -/
def Modern (t : ExtType) (p : Bytes) : Prop :=
  match t with
  | .metadata => ∃ symbol description uri image more, ShortString symbol ∧ ShortString description ∧
      ShortString uri ∧ ShortString image ∧
      p = prefixed symbol ++ (prefixed description ++ (prefixed uri ++ (prefixed image ++ more)))
  | .grouping => p.length = 48
  | .royalties => ∃ r, readRoyalties p = .ok r ∧ Selectable r.constraint
  | .creators => p.length % 34 = 0 ∧ ∀ c ∈ creatorList p, c.verified = 0 ∨ c.verified = 1
  | .properties => ∃ l, readPropList p = .ok l ∧ ∀ x ∈ l, PlainValue x.2
  | t => Readable t p

/-- The asset as the client shows it, with extensions `vs`. -/
def shownAsset (text : Bytes → Bytes) (A : Asset) (vs : List JsExt) : JsAsset :=
  ⟨A.state.toNat, A.standard.toNat, podTrue A.mutableByte, A.owner, shownKey A.group, A.authority,
    (shownKey A.delegate).map fun k => (k, shownRoles A.roles), text A.name, vs⟩

/-- The header bytes are among the values the program writes. -/
def HeaderInRange (A : Asset) : Prop :=
  A.state.toNat ≤ 1 ∧ A.standard.toNat ≤ 3 ∧ A.mutableByte.toNat ≤ 1

/-- The header bytes are in range and all data is of the form the client expects. -/
def JsFriendly (A : Asset) : Prop := HeaderInRange A ∧ ∀ x ∈ A.exts, Modern x.1 x.2

/-- After the last extension there is either nothing or room for a header. -/
def NoStub (L : Ledger) (k : Key) (A : Asset) : Prop :=
  Tight L k A ∨ packedEnd 168 A.exts + 16 ≤ (L k).data.length

/-- An update brings its data along, in the form the client expects. -/
def StoresModern (program : Key) (accts : List Key) : Instr → Prop
  | .update x => NoBuffer program accts (.update x) ∧
      ∀ e, x.extension = some e → ∃ new, e.data = some new ∧ Modern e.ty new
  | _ => True

end Verif.Spec
