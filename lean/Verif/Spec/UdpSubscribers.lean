import Verif.Spec.EqSubscribers
import Verif.Model.UdpSubscribers

/-!
# Specification: subscribers of the dispatcher's messages
-/

namespace Pyogp.Spec

/-- The dispatcher whose deserializer is told that these names are registered, at every moment. -/
def withNames (env : DEnv) (names : List Ev → List String) : DEnv := { env with deser := fun tr => { env.deser tr with handled? := some (names tr) } }

/-- What a dispatcher with some handlers of messages (`env.handler`) returns for an operation. -/
def opResult (env : DEnv) (st : DState) : Op → OpResult
  | .send m h mode => .sent (send env st m h mode).1
  | .recv h dg => .received (receiveCheck env st h dg).1
  | .processAcks order => .acks (processAcks env st order).1
  | _ => .nothing

/-- What it returns over a history. -/
def opResults (env : DEnv) : DState → List Op → List OpResult
  | _, [] => []
  | st, o :: ops => opResult env st o :: opResults env (step env st o) ops

/-- The operations of the dispatcher in a history. -/
def dispatcherOps : List SOp → List Op
  | [] => []
  | .op o :: l => o :: dispatcherOps l
  | .subs _ :: l => dispatcherOps l

/-- What the dispatcher returned in a history. -/
def dispatcherResults : List SOp → List OpResult → List OpResult
  | .op _ :: l, r :: rs => r :: dispatcherResults l rs
  | .subs _ :: l, _ :: rs => dispatcherResults l rs
  | _, _ => []

/-- The handler never raises this exception, whatever becomes of the messages it sends. -/
def NeverRaises (e : Exc) : Prog → Prop
  | .done => True
  | .raise e' => e' ≠ e
  | .send _ _ _ k => ∀ r, NeverRaises e (k r)
  | .setHost _ _ k => NeverRaises e k

/-- The subscriber returns normally (whatever becomes of the messages it sends) and leaves all subscriptions alone. -/
def SProg.Quiet : SProg → Prop
  | .done => True
  | .raise _ => False
  | .send _ _ _ k => ∀ r, SProg.Quiet (k r)
  | .setHost _ _ k => SProg.Quiet k
  | .subscribe .. => False
  | .unsubscribe .. => False
  | .register _ k => SProg.Quiet k

/-- The messages handed to the message handler. -/
def handedMessages (tr : List Ev) : List Message :=
  tr.filterMap (fun e => match e with
    | .delivered m => some m
    | .outgoing m => some m
    | _ => none)

/-- Those among them that were received. -/
def deliveredMessages (tr : List Ev) : List Message :=
  tr.filterMap (fun e => match e with
    | .delivered m => some m
    | _ => none)

/-- A call, but for the nesting level. -/
def callData (c : Call Message) : String × Nat × Message × List Nat × List (String × Nat) := (c.event, c.handler, c.args.1, c.args.2, c.kwargs)

/-- The calls these messages should lead to: one per subscription to the name of each. -/
def callsDue (subs : String → List Sub) (ms : List Message) : List (String × Nat × Message × List Nat × List (String × Nat)) :=
  ms.flatMap (fun m => (subs m.name).map (fun s => (m.name, s.handler, m, s.args, s.kwargs)))

/-- Something due for messages with the current subscriptions, over a history: the operations with the messages handed over in each, and the changes of subscriptions in between. -/
def dueOver {β : Type} (due : (String → List Sub) → List Message → List β) : (String → List Sub) → List (SOp × List Message) → List β
  | _, [] => []
  | subs, (.subs o, _) :: l => dueOver due (subsAfter subs [o]) l
  | subs, (.op _, g) :: l => due subs g ++ dueOver due subs l

end Pyogp.Spec
