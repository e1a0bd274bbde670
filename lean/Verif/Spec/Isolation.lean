import Verif.Model.Dispatcher

/-!
# What concerns one peer

Vocabulary for saying that peers of one dispatcher do not influence each other.
-/

namespace Pyogp
namespace Spec

/-- The events that are about one address. -/
def evAbout (a : Addr) : Ev → Bool
  | .received b _ => b = a
  | .parsed b _ => b = a
  | .prepared b _ => b = a
  | .sent b _ => b = a
  | .removed b => b = a
  | .delivered _ => false
  | .outgoing _ => false

/-- Everything observable that happened with one address, in order: what was received and parsed from it, prepared for it
and accepted by the socket for it, and when its circuit was removed. -/
def view (a : Addr) (tr : List Ev) : List Ev := tr.filter (evAbout a)

/-- The address the last datagram came from. -/
def lastReceived : List Ev → Option Addr
  | [] => none
  | e :: tr =>
    match lastReceived tr, e with
    | some b, _ => some b
    | none, .received b _ => some b
    | none, _ => none

/-- What is left of an operation when there is only the peer with address `a`: operations on other peers are gone, and
`process_acks` only finds the circuit of `a`. -/
def opOnly (hosts : HostRef → Host) (a : Addr) : Op → Option Op
  | .send m h mode => if (hosts h).addr = a then some (.send m h mode) else none
  | .recv h dg => if (hosts h).addr = a then some (.recv h dg) else none
  | .processAcks order => some (.processAcks (order.filter (· = a)))
  | .setHost h v => some (.setHost h v)
  | .removeCircuit h => if (hosts h).addr = a then some (.removeCircuit h) else none
  | .setTrusted b x => if b = a then some (.setTrusted b x) else none

/-- The history as it would be without the other peers. -/
def historyOnly (hosts : HostRef → Host) (a : Addr) (ops : List Op) : List Op := ops.filterMap (opOnly hosts a)

/-- The subscribers only send to hosts of this address and change no host. -/
inductive AnswersOnly (hosts : HostRef → Host) (a : Addr) : Prog → Prop
  | done : AnswersOnly hosts a .done
  | raise (e : Exc) : AnswersOnly hosts a (.raise e)
  | send (m : Message) (h : HostRef) (mode : SendMode) (k : Py (Option Bytes) → Prog) :
      (hosts h).addr = a → (∀ r, AnswersOnly hosts a (k r)) → AnswersOnly hosts a (.send m h mode k)

/-- Nothing outside of the dispatcher lets one peer influence another: outgoing messages are not passed to subscribers
(the default), which messages are handled is fixed, whether the socket accepts a datagram for a peer, and what subscribers
do with a message, depends on what happened with that peer only, and they only answer the peer the message is from. -/
structure Separate (env : DEnv) (hosts : HostRef → Host) : Prop where
  outgoing : env.handleOutgoing = false
  depth : 0 < env.depth
  handled : ∀ tr tr', env.deser tr = env.deser tr'
  socket : ∀ a tr tr' dg, view a tr = view a tr' → env.net tr a dg = env.net tr' a dg
  subscribers : ∀ a tr tr' m, lastReceived tr = some a → lastReceived tr' = some a → view a tr = view a tr' →
    env.handler tr m = env.handler tr' m
  answers : ∀ a tr m, lastReceived tr = some a → AnswersOnly hosts a (env.handler tr m)

end Spec
end Pyogp
