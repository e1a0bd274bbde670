import Verif.Model.Manager
import Verif.Spec.Circuit

/-!
# Specification: the order of outgoing messages
-/

namespace Pyogp.Spec

/-- The order in which queued messages have to leave: urgent ones first, the last enqueued first; then the others, the first enqueued
first. -/
def sendOrder (es : List QEntry) : List QEntry := (es.filter (·.now)).reverse ++ es.filter (fun e => !e.now)

/-- What is visible of a message that is given an id for sending: destination, name, contents and whether it asks for an acknowledgement. -/
def visible (p : Addr × Message) : Addr × String × Dict String (List BlockData) × Bool :=
  (p.1, p.2.name, p.2.blocks, decide (p.2.sendFlags &&& 0x40 ≠ 0))

/-- What has to be visible of a queued message. -/
def wanted (a : Addr) (e : QEntry) : Addr × String × Dict String (List BlockData) × Bool := (a, e.msg.name, e.msg.blocks, e.reliable)

end Pyogp.Spec
