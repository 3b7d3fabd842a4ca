import Verif.Spec.BridgeBuilders
import Verif.Lemmas.Builders

/-!
# Builders of the bridge client: lemmas
-/

namespace Verif

open Verif.Spec

theorem bridge_field {α : Type} (get : BridgeFields → Option α)
    (sel : BridgeSetting → Option (Option α))
    (h : ∀ f s, get (f.set s) = (sel s).getD (get f)) (f : BridgeFields) (ss : List BridgeSetting) :
    get (ss.foldl BridgeFields.set f) = ((ss.filterMap sel).getLast?).getD (get f) := by
  induction ss generalizing f with
  | nil => rfl
  | cons s ss ih =>
    rw [List.foldl_cons, ih, h]
    cases hs : sel s with
    | none => rw [List.filterMap_cons_none hs]; rfl
    | some v =>
      rw [List.filterMap_cons_some hs, List.getLast?_cons]
      cases (ss.filterMap sel).getLast? <;> rfl

theorem bridge_acct (s : BridgeSlot) (ss : List BridgeSetting) :
    (ss.foldl BridgeFields.set {}).acct s = lastSet (ofSlot s) ss := by
  rw [bridge_field (·.acct s) (ofSlot s)]
  · unfold lastSet
    cases (ss.filterMap (ofSlot s)).getLast? <;> rfl
  · intro f t
    cases t with
    | account t o b =>
      simp only [BridgeFields.set, ofSlot]
      split <;> rfl
    | _ => rfl

theorem bridge_collection (ss : List BridgeSetting) :
    (ss.foldl BridgeFields.set {}).isCollection = lastSet ofCollection ss := by
  rw [bridge_field (·.isCollection) ofCollection (fun f t => by cases t <;> rfl)]
  unfold lastSet
  cases (ss.filterMap ofCollection).getLast? <;> rfl

theorem bridge_remaining (f : BridgeFields) (ss : List BridgeSetting) :
    (ss.foldl BridgeFields.set f).remaining = f.remaining ++ bridgeExtra ss := by
  induction ss generalizing f with
  | nil => simp [bridgeExtra]
  | cons s ss ih =>
    rw [List.foldl_cons, ih]
    cases s <;> simp [BridgeFields.set, bridgeExtra]

theorem bridge_need {s : BridgeSlot} {ss : List BridgeSetting} {k : Key} :
    (ss.foldl BridgeFields.set {}).need s = .ok k ↔ slotKey s ss = some k := by
  unfold BridgeFields.need
  rw [bridge_acct, expectSet_ok]
  rfl

theorem bridge_program {s : BridgeSlot} {ss : List BridgeSetting} {cpi : Bool} {known k : Key} :
    (ss.foldl BridgeFields.set {}).program cpi s known = .ok k ↔ ProgramIs (!cpi) s ss known k := by
  unfold BridgeFields.program ProgramIs
  rw [bridge_acct, show (lastSet (ofSlot s) ss).map (·.1) = slotKey s ss from rfl]
  cases slotKey s ss <;> cases cpi <;> simp [eq_comm]

end Verif
