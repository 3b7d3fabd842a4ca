import Verif.Spec.Birth
import Verif.Model.BridgeCreate

/-!
# The asset of a token
-/

namespace Verif.Spec

open Verif

/-- The limits that the token metadata program puts on a token (it allows 32 bytes for the name,
10 for the symbol, 200 for the uri, and 5 creators). -/
def GoodToken (m : TokenMetadata) : Prop :=
  m.name.length ≤ 255 ∧ validUtf8 m.name = true ∧ m.symbol.length ≤ 255 ∧ m.uri.length ≤ 255 ∧
  ∀ l, m.creators = some l → l.length ≤ 256

/-- The extensions of the asset: the texts, the creators if there are any, and for a collection
what makes it a group; a programmable collection has royalties. -/
def bridgedTypes (m : TokenMetadata) (isCollection : Bool) : List ExtType :=
  [.metadata] ++ (if m.creators.isSome then [.creators] else []) ++
  (if isCollection || m.sized then
    if m.programmable then [.grouping, .royalties] else [.grouping] else [])

/-- The creators of a new asset: those of the token in the same order with the same shares. The
flags of the token are not taken over: the update authority is verified and nobody else is. -/
def bridgedCreators (m : TokenMetadata) (l : List (Key × Bool × UInt8)) : List Creator :=
  l.map fun c => ⟨c.1, if c.1 = m.updateAuthority then 1 else 0, c.2.2⟩

/-- The asset says what the token says. -/
structure Mirrors (m : TokenMetadata) (isCollection : Bool) (A : Asset) : Prop where
  name : A.name = storedName m.name
  authority : A.authority = m.updateAuthority
  group : A.group = Key.default
  standard : A.standard = 0
  state : A.state = 0
  isMutable : A.mutableByte = 1
  types : A.exts.map (·.1) = bridgedTypes m isCollection
  texts : ∃ p, lookup .metadata A.exts = some p ∧ readMetadata p = .ok ⟨m.symbol, [], m.uri, []⟩
  creators : ∀ l, m.creators = some l →
    ∃ p, lookup .creators A.exts = some p ∧ creatorList p = bridgedCreators m l ∧
      ((l.map fun c => c.2.2.toNat).sum) % 256 = 100
  grouping : ∀ p, lookup .grouping A.exts = some p →
    membersOf p = 0 ∧ limitOf p = 0 ∧ p.length = 48 ∧ keyAt p 16 = Key.default
  royalties : ∀ p, lookup .royalties A.exts = some p →
    readRoyalties p = .ok ⟨m.sellerFee.toNat, .empty⟩ ∧ m.sellerFee.toNat ≤ 10000

end Verif.Spec
