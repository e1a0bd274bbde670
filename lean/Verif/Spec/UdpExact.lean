import Verif.Spec.UdpSubscribers

/-!
# Specification: what subscribers with a fixed behaviour amount to
-/

namespace Pyogp.Spec

/-- The subscriber leaves subscriptions and registrations alone (it may send messages, change hosts and raise). -/
def SProg.LeavesSubs : SProg → Prop
  | .done => True
  | .raise _ => True
  | .send _ _ _ k => ∀ r, SProg.LeavesSubs (k r)
  | .setHost _ _ k => SProg.LeavesSubs k
  | .subscribe .. => False
  | .unsubscribe .. => False
  | .register .. => False

/-- The subscriber only works on subscriptions (it may raise). -/
def SProg.SubsOnly : SProg → Prop
  | .done => True
  | .raise _ => True
  | .send .. => False
  | .setHost .. => False
  | .subscribe _ _ k => SProg.SubsOnly k
  | .unsubscribe _ _ k => ∀ r, SProg.SubsOnly (k r)
  | .register _ k => SProg.SubsOnly k

/-- What it does to the dispatcher. -/
def SProg.toDispatcher : SProg → Prog
  | .done => .done
  | .raise e => .raise e
  | .send m h mode k => .send m h mode (fun r => SProg.toDispatcher (k r))
  | .setHost h v k => .setHost h v (SProg.toDispatcher k)
  | .subscribe _ _ k => SProg.toDispatcher k
  | .unsubscribe _ _ k => SProg.toDispatcher (k (.ok ()))
  | .register _ k => SProg.toDispatcher k

/-- What it does to the message handler. -/
def SProg.toHandler : SProg → EvProg Message
  | .done => .done
  | .raise e => .raise e
  | .send _ _ _ k => SProg.toHandler (k (.ok none))
  | .setHost _ _ k => SProg.toHandler k
  | .subscribe n s k => .register n (.subscribe n s (SProg.toHandler k))
  | .unsubscribe n s k => .unsubscribe n s (fun r => SProg.toHandler (k r))
  | .register n k => .register n (SProg.toHandler k)

/-- One program, then the other if the first returns. -/
def andThen : Prog → Prog → Prog
  | .done, q => q
  | .raise e, _ => .raise e
  | .send m h mode k, q => .send m h mode (fun r => andThen (k r) q)
  | .setHost h v k, q => .setHost h v (andThen k q)

/-- A `KeyError` is caught. -/
def catchingKeyError : Prog → Prog
  | .done => .done
  | .raise e => if e = .keyError then .done else .raise e
  | .send m h mode k => .send m h mode (fun r => catchingKeyError (k r))
  | .setHost h v k => .setHost h v (catchingKeyError k)

/-- What a subscriber does when it is called, depending only on the call: the handler, the message with the further arguments, and the keyword arguments. -/
abbrev Fixed := Nat → Message × List Nat → List (String × Nat) → SProg

/-- The subscribers always behave in this way. -/
def BehavesAs (beh : SBehaviour) (B : Fixed) : Prop := ∀ tr cs c, beh tr (cs ++ [c]) = B c.handler c.args c.kwargs

/-- All these subscribers, one after the other, until one raises; a `KeyError` is caught. -/
def allOf (B : Fixed) (subs : List Sub) (m : Message) : Prog :=
  catchingKeyError ((subs.map (fun s => SProg.toDispatcher (B s.handler (m, s.args) s.kwargs))).foldr andThen .done)

/-- The dispatcher of the other properties with these subscribers, and these names registered. -/
def withSubscribers (env : DEnv) (B : Fixed) (ev : EvState Message) : DEnv := withNames { env with handler := fun _ m => allOf B (ev.subs m.name) m } (fun _ => ev.names)

end Pyogp.Spec
