import Verif.Model.Overlap
import Verif.Spec.Events

/-!
# Specification: notifications that overlap
-/

namespace Pyogp.Spec

/-- The changes of the subscriptions to an event. -/
def eventChanges {α : Type} (ev : String) (tr : List (CoEv α)) : List EventOp :=
  tr.filterMap (fun e => match e with
    | .subscribed ev' s => if ev' = ev then some (.subscribe s) else none
    | .unsubscribed ev' s => if ev' = ev then some (.unsubscribe s) else none
    | _ => none)

/-- The subscriptions to it in force then: those made and not cancelled. -/
def subscriptions {α : Type} (ev : String) (tr : List (CoEv α)) : List Sub := inForce (ledger (eventChanges ev tr))

/-- The calls of a notification. -/
def callsIn {α : Type} (id : NotifyId) (tr : List (CoEv α)) : List (CoCall α) :=
  tr.filterMap (fun e => match e with
    | .called id' c => if id' = id then some c else none
    | _ => none)

/-- The call a subscription is notified with: the event's argument followed by the arguments given when subscribing. -/
def coCallOf {α : Type} (x : α) (s : Sub) : CoCall α := ⟨s.handler, (x, s.args), s.kwargs⟩

/-- What has happened in a program in which nobody had subscribed at first. -/
def coTrace {α : Type} (limit : Nat) (beh : CoBehaviour α) (names : List String) (acts : List (CoAct α)) : List (CoEv α) := (coRun limit beh { names := names } acts).trace

/-- The cancellations of subscriptions to an event: how many. -/
def cancellationsOf {α : Type} (ev : String) (tr : List (CoEv α)) : Nat := tr.countP (fun e => match e with | .unsubscribed ev' _ => ev' = ev | _ => false)

/-- The subscriptions made to an event: how many. -/
def subscribedTo {α : Type} (ev : String) (tr : List (CoEv α)) : Nat := tr.countP (fun e => match e with | .subscribed ev' _ => ev' = ev | _ => false)

end Pyogp.Spec
