import Verif.Model.ReceivedSubs
import Verif.Spec.Received
import Verif.Spec.UdpSubscribers

/-!
# Specification: received messages as objects, and subscribers that work on subscriptions
-/

namespace Pyogp.Spec

/-- The second does what the first does, but leaves subscriptions alone: where the first unsubscribes something, the second goes on as the first does in one of the two cases (it was subscribed, or
an exception is raised). -/
inductive SameButSubs : XProg → RProg → Prop
  | done : SameButSubs .done .done
  | raise (e : Exc) : SameButSubs (.raise e) (.raise e)
  | look (k : Message → XProg) (k' : Message → RProg) : (∀ m, SameButSubs (k m) (k' m)) → SameButSubs (.look k) (.look k')
  | write (m : Message) (k : XProg) (k' : RProg) : SameButSubs k k' → SameButSubs (.write m k) (.write m k')
  | send (m : Message) (r : HostRef) (mode : SendMode) (k : Py (Option Bytes) → XProg) (k' : Py (Option Bytes) → RProg) : (∀ x, SameButSubs (k x) (k' x)) →
      SameButSubs (.send m r mode k) (.send m r mode k')
  | forward (r : HostRef) (mode : SendMode) (k : Py (Option Bytes) → XProg) (k' : Py (Option Bytes) → RProg) : (∀ x, SameButSubs (k x) (k' x)) →
      SameButSubs (.forward r mode k) (.forward r mode k')
  | setHost (r : HostRef) (v : Host) (k : XProg) (k' : RProg) : SameButSubs k k' → SameButSubs (.setHost r v k) (.setHost r v k')
  | subscribe (n : String) (s : Sub) (k : XProg) (k' : RProg) : SameButSubs k k' → SameButSubs (.subscribe n s k) k'
  | unsubscribe (n : String) (s : Sub) (k : Py Unit → XProg) (k' : RProg) (x : Py Unit) : SameButSubs (k x) k' → SameButSubs (.unsubscribe n s k) k'
  | register (n : String) (k : XProg) (k' : RProg) : SameButSubs k k' → SameButSubs (.register n k) k'

/-- The calls. -/
def calledIn (l : List HandlerEv) : List (Sub × Message) :=
  l.filterMap (fun e => match e with
    | .called s m => some (s, m)
    | _ => none)

/-- The work on subscriptions. -/
def changesIn (l : List HandlerEv) : List SubOp :=
  l.filterMap (fun e => match e with
    | .changed o => some o
    | _ => none)

/-- In these events the subscribers of the name began to be called, and the calls did not end since; these were made since. -/
def InProgress (l : List HandlerEv) (name : String) (calls : List (Sub × Message)) : Prop :=
  ∃ before since, l = before ++ .started name :: since ∧ calls = calledIn since ∧ ∀ e ∈ since, (∃ s m, e = .called s m) ∨ ∃ o, e = .changed o

/-- The subscriber does not change the name or the blocks of the message object (it may send it on and work on subscriptions). -/
inductive KeepsContent : XProg → Prop
  | done : KeepsContent .done
  | raise (e : Exc) : KeepsContent (.raise e)
  | look (k : Message → XProg) : (∀ m, KeepsContent (k m)) → KeepsContent (.look k)
  | send (m : Message) (r : HostRef) (mode : SendMode) (k : Py (Option Bytes) → XProg) : (∀ x, KeepsContent (k x)) → KeepsContent (.send m r mode k)
  | forward (r : HostRef) (mode : SendMode) (k : Py (Option Bytes) → XProg) : (∀ x, KeepsContent (k x)) → KeepsContent (.forward r mode k)
  | setHost (r : HostRef) (v : Host) (k : XProg) : KeepsContent k → KeepsContent (.setHost r v k)
  | subscribe (n : String) (s : Sub) (k : XProg) : KeepsContent k → KeepsContent (.subscribe n s k)
  | unsubscribe (n : String) (s : Sub) (k : Py Unit → XProg) : (∀ x, KeepsContent (k x)) → KeepsContent (.unsubscribe n s k)
  | register (n : String) (k : XProg) : KeepsContent k → KeepsContent (.register n k)

/-- The subscriber subscribes nothing (it may cancel subscriptions). -/
inductive SubscribesNothing : XProg → Prop
  | done : SubscribesNothing .done
  | raise (e : Exc) : SubscribesNothing (.raise e)
  | look (k : Message → XProg) : (∀ m, SubscribesNothing (k m)) → SubscribesNothing (.look k)
  | write (m : Message) (k : XProg) : SubscribesNothing k → SubscribesNothing (.write m k)
  | send (m : Message) (r : HostRef) (mode : SendMode) (k : Py (Option Bytes) → XProg) : (∀ x, SubscribesNothing (k x)) → SubscribesNothing (.send m r mode k)
  | forward (r : HostRef) (mode : SendMode) (k : Py (Option Bytes) → XProg) : (∀ x, SubscribesNothing (k x)) → SubscribesNothing (.forward r mode k)
  | setHost (r : HostRef) (v : Host) (k : XProg) : SubscribesNothing k → SubscribesNothing (.setHost r v k)
  | unsubscribe (n : String) (s : Sub) (k : Py Unit → XProg) : (∀ x, SubscribesNothing (k x)) → SubscribesNothing (.unsubscribe n s k)
  | register (n : String) (k : XProg) : SubscribesNothing k → SubscribesNothing (.register n k)

end Pyogp.Spec
