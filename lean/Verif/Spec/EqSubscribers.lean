import Verif.Spec.EventQueue
import Verif.Spec.Events
import Verif.Model.EqSubscribers

/-!
# Specification: subscribers of event-queue messages
-/

namespace Pyogp.Spec

/-- The program never raises (exceptions of events it fires are handed to it). -/
def NoRaise {α : Type} : EvProg α → Prop
  | .done => True
  | .raise _ => False
  | .subscribe _ _ k => NoRaise k
  | .unsubscribe _ _ k => ∀ r, NoRaise (k r)
  | .register _ k => NoRaise k
  | .fire _ _ k => ∀ r, NoRaise (k r)

/-- Subscribers that return normally and leave all subscriptions alone. -/
def Quietly (beh : Behaviour Message) : Prop := ∀ tr, NoRaise (beh tr) ∧ ∀ ev, NoSub ev (beh tr) ∧ NoUnsub ev (beh tr)

/-- The calls these messages should lead to: for each message, one call per subscription to its name, in order, with the message. -/
def callsFor (level : Nat) (subs : String → List Sub) (ms : List Message) : List (Call Message) :=
  ms.flatMap (fun m => (subs m.name).map (callOf level m.name m))

/-- The subscriptions after what other coroutines did: subscribing adds at the end, unsubscribing removes the first such subscription. -/
def subsAfter (subs : String → List Sub) : List SubOp → String → List Sub
  | [] => subs
  | .register _ :: l => subsAfter subs l
  | .subscribe n s :: l => subsAfter (fun k => if k = n then subs k ++ [s] else subs k) l
  | .unsubscribe n s :: l => subsAfter (fun k => if k = n then (subs k).erase s else subs k) l

/-- The calls a sequence of polls should lead to: for every poll, those for the messages of its response (of the last one, if it failed), with the subscriptions of that moment. -/
def callsAlong (level : Nat) : (String → List Sub) → Option (Llsd × List Event) → List (List SubOp × Option (Llsd × List Event)) → List (Call Message)
  | _, _, [] => []
  | subs, last, (ops, m) :: l =>
    callsFor level (subsAfter subs ops) (((m.or last).map responseMessages).getD []) ++ callsAlong level (subsAfter subs ops) (m.or last) l

/-- The calls that handing over these messages should lead to, poll by poll, with the subscriptions of that moment. -/
def callsOver (level : Nat) : (String → List Sub) → List (List SubOp × List Message) → List (Call Message)
  | _, [] => []
  | subs, (ops, ms) :: l => callsFor level (subsAfter subs ops) ms ++ callsOver level (subsAfter subs ops) l

end Pyogp.Spec
