import Verif.Model.Objects
import Verif.Spec.Circuit

/-!
# Messages as objects and as values
-/

namespace Pyogp.Spec

/-- Two circuits that differ at most in the messages they keep under the ids that wait for an acknowledgement. -/
structure AlikeCircuit (c c' : Circuit) : Prop where
  host : c.host = c'.host
  alive : c.alive = c'.alive
  trusted : c.trusted = c'.trusted
  lastOut : c.lastOut = c'.lastOut
  lastIn : c.lastIn = c'.lastIn
  acks : c.acks = c'.acks
  unacked : c.unacked.keys = c'.unacked.keys
  unackCount : c.unackCount = c'.unackCount
  finalRetry : c.finalRetry.keys = c'.finalRetry.keys
  finalCount : c.finalCount = c'.finalCount

/-- Two dispatchers that differ at most in the messages kept there.  In particular everything that happened (`trace`) is the same. -/
structure AlikeDisp (d d' : DState) : Prop where
  hosts : d.hosts = d'.hosts
  keys : d.circuits.keys = d'.circuits.keys
  circuits : ∀ a, (d.circuits.get? a = none ∧ d'.circuits.get? a = none) ∨
    ∃ c c', d.circuits.get? a = some c ∧ d'.circuits.get? a = some c' ∧ AlikeCircuit c c'
  unackedCircuits : d.unackedCircuits = d'.unackedCircuits
  packetsIn : d.packetsIn = d'.packetsIn
  packetsOut : d.packetsOut = d'.packetsOut
  deser : d.deser = d'.deser
  trace : d.trace = d'.trace

/-- Name and blocks of a message. -/
abbrev Content := String × Dict String (List BlockData)

def contentOf (m : Message) : Content := (m.name, m.blocks)

/-- What the program expects: the content it last gave each object, the queue, and what was sent where, with the content of the moment. -/
structure Expected where
  content : MsgRef → Content
  queue : List QRef := []
  sends : List (Content × HostRef × SendMode) := []

/-- Only the program itself changes the content of its messages. -/
def expectStep (host : HostRef) (e : Expected) : OAct → Expected
  | .edit o m => { e with content := fun x => if x = o then contentOf m else e.content x }
  | .send o r mode => { e with sends := e.sends ++ [(e.content o, r, mode)] }
  | .enqueue q => { e with queue := if q.now then q :: e.queue else e.queue ++ [q] }
  | .sendNext => match e.queue with
    | [] => e
    | q :: l => { e with queue := l, sends := e.sends ++ [(e.content q.obj, host, if q.reliable then .reliable 0 else .plain)] }
  | .use (.send m r mode) => { e with sends := e.sends ++ [(contentOf m, r, mode)] }
  | .use _ => e

def expected (host : HostRef) (heap : MsgRef → Message) (as : List OAct) : Expected :=
  as.foldl (expectStep host) { content := fun o => contentOf (heap o) }

/-- The sends in a history of a dispatcher. -/
def sendsIn (ops : List Op) : List (Content × HostRef × SendMode) :=
  ops.filterMap fun | .send m r mode => some (contentOf m, r, mode) | _ => none

/-- A newly constructed message with a given content. -/
def newMessage (c : Content) : Message := { Message.new c.1 [] with blocks := c.2 }

end Pyogp.Spec
