import Verif.Model.BridgeBuilders

/-!
# What a sequence of setters of the bridge client asks for
-/

namespace Verif.Spec

open Verif

/-- Setters of one account, and of the argument. -/
def ofSlot (s : BridgeSlot) : BridgeSetting → Option (Option (Key × Bool))
  | .account t o b => if s = t then some (o.map (·, b)) else none
  | _ => none
@[inherit_doc ofSlot] def ofCollection : BridgeSetting → Option (Option Bool)
  | .isCollection b => some (some b)
  | _ => none

/-- The last one counts. -/
def lastSet {α : Type} (sel : BridgeSetting → Option (Option α)) (ss : List BridgeSetting) : Option α :=
  ((ss.filterMap sel).getLast?).join

/-- The key of an account. -/
def slotKey (s : BridgeSlot) (ss : List BridgeSetting) : Option Key := (lastSet (ofSlot s) ss).map (·.1)

/-- The accounts added at the end. -/
def bridgeExtra : List BridgeSetting → List Meta
  | [] => []
  | .remaining ms :: ss => ms ++ bridgeExtra ss
  | _ :: ss => bridgeExtra ss

/-- The program `k` is the one set or, where `d` allows it, the well-known one. -/
def ProgramIs (d : Bool) (s : BridgeSlot) (ss : List BridgeSetting) (known k : Key) : Prop :=
  slotKey s ss = some k ∨ d = true ∧ slotKey s ss = none ∧ k = known

/-- The setters ask for this call; `d` tells whether programs may be left out. -/
def AsksBridge (T : TokenLibs) (d : Bool) (ss : List BridgeSetting) : BridgeCall → Prop
  | .bridge x =>
    (slotKey .asset ss = some x.asset ∧ slotKey .vault ss = some x.vault ∧
      slotKey .owner ss = some x.owner ∧ slotKey .token ss = some x.token ∧
      slotKey .mint ss = some x.mint ∧ slotKey .metadata ss = some x.metadata ∧
      slotKey .masterEdition ss = some x.masterEdition ∧ slotKey .tokenRecord ss = x.tokenRecord ∧
      slotKey .vaultToken ss = some x.vaultToken ∧ slotKey .vaultTokenRecord ss = x.vaultTokenRecord ∧
      slotKey .payer ss = some x.payer) ∧
    (ProgramIs d .assetProgram ss T.assetProgram x.assetProgram ∧
      ProgramIs d .metadataProgram ss T.metadataProgram x.metadataProgram ∧
      ProgramIs d .sys ss Key.system x.sys ∧ ProgramIs d .sysvar ss T.sysvar x.sysvar ∧
      ProgramIs d .splToken ss T.splToken x.splToken ∧ ProgramIs d .splAta ss T.splAta x.splAta) ∧
    slotKey .rulesProgram ss = x.rulesProgram ∧ slotKey .rules ss = x.rules ∧ slotKey .group ss = x.group
  | .create x signs assetProgram isCollection =>
    slotKey .asset ss = some x.asset ∧ slotKey .vault ss = some x.vault ∧
      slotKey .mint ss = some x.mint ∧ slotKey .metadata ss = some x.metadata ∧
      lastSet (ofSlot .updateAuthority) ss = some (x.updateAuthority, signs) ∧
      slotKey .collection ss = x.collection ∧ slotKey .payer ss = some x.payer ∧
      ProgramIs d .sys ss Key.system x.sys ∧
      ProgramIs d .assetProgram ss T.assetProgram assetProgram ∧
      lastSet ofCollection ss = some isCollection

end Verif.Spec
