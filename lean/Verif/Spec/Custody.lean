import Verif.Spec.Moves
import Verif.Spec.Bridged

/-!
# Custody of a bridged token

For one vault of the bridge, the mint of its token and its asset: what it means that the vault
holds the one or the other, and what may happen over time.
-/

namespace Verif.Spec

open Verif

/-- No manager has any role on the asset: the Manager extension is missing or empty. -/
def Unmanaged (A : Asset) : Prop := ∀ p, lookup .manager A.exts = some p → p = []

/-- The vault says that the token is with a user (`false`) or with the vault (`true`). -/
def vaultActive (S : Chain) (vault : Key) : Bool := byteAt (S.ledger vault).data 1 ≠ 0

/-- The account is a vault of the bridge program for this mint and this asset: kind 1, state 0 or
1, bump, mint, bump of the asset. -/
def IsVault (derive : Bytes → UInt8 → Key → Option Key) (program vault asset mint : Key)
    (S : Chain) : Prop :=
  (S.ledger vault).owner = program ∧ 36 ≤ (S.ledger vault).data.length ∧
  byteAt (S.ledger vault).data 0 = 1 ∧
  (byteAt (S.ledger vault).data 1 = 0 ∨ byteAt (S.ledger vault).data 1 = 1) ∧
  keyAt (S.ledger vault).data 3 = mint ∧
  derive (bridgedPrefix ++ mint.1) (byteAt (S.ledger vault).data 35) program = some asset

/-- The vault holds the asset while it is idle and the token while it is active, and nobody else is
entitled to move an asset held by the vault. -/
def Custody (assetId vault asset mint : Key) (S : Chain) : Prop :=
  ∃ A, Stores assetId S.ledger asset A ∧ Unmanaged A ∧
    (A.owner = vault → A.delegate = Key.default) ∧
    (vaultActive S vault = false → A.owner = vault) ∧
    (vaultActive S vault = true → S.holder mint = vault)

/-- What may happen: instructions of the bridge for any vault and any token, instructions of the asset program by
anybody, and whatever other programs do. The vault is an address derived from the bridge program,
so only that program signs for it. The asset is not burned, and the asset program is not asked for
what it gets wrong (`Sound`). -/
inductive BridgeStep (derive : Bytes → UInt8 → Key → Option Key) (program assetId vault asset : Key) :
    Chain → Chain → Prop
  | bridge {S S' : Chain} (E : Env) (C : BridgeConsts) (accts : List Key) (data : Bytes)
      (hp : E.program = program) (hd : E.pda = derive) (hc : C.assetId = assetId)
      (hv : E.signer vault = false) (hm : ∀ d m, C.metadata d = some m → GoodToken m)
      (h : bridgeProcess E C S accts data = .ok S') :
      BridgeStep derive program assetId vault asset S S'
  | instr {S : Chain} {L' : Ledger} (E : Env) (accts : List Key) (i : Instr)
      (hp : E.program = assetId) (hv : E.signer vault = false)
      (h : execute E S.ledger accts i = .ok L')
      (hb : ¬ (i = .burn ∧ accts.head? = some asset))
      (hs : ∀ A, Stores assetId S.ledger asset A → Sound asset A accts i) :
      BridgeStep derive program assetId vault asset S ⟨L', S.holder⟩
  | other {S S' : Chain} (hf : Foreign assetId S.ledger S'.ledger)
      (ho : (S'.ledger vault).owner = (S.ledger vault).owner)
      (hd : (S'.ledger vault).data = (S.ledger vault).data)
      (ht : ∀ m, S.holder m = vault → S'.holder m = vault) :
      BridgeStep derive program assetId vault asset S S'

/-- Any number of steps. -/
inductive BridgeLife (derive : Bytes → UInt8 → Key → Option Key)
    (program assetId vault asset : Key) : Chain → Chain → Prop
  | refl (S : Chain) : BridgeLife derive program assetId vault asset S S
  | step {S S' S'' : Chain} (hl : BridgeLife derive program assetId vault asset S S')
      (h : BridgeStep derive program assetId vault asset S' S'') :
      BridgeLife derive program assetId vault asset S S''

end Verif.Spec
