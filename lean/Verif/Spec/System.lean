import Verif.Model.Dispatcher
import Verif.Spec.Circuit

/-!
# Two programs that use the library, and a network between them

The network may lose, duplicate, delay, reorder and misdirect datagrams in any way; it does not make any up.
-/

namespace Pyogp
namespace Spec

/-- What a program does with its dispatcher by itself.  (No circuit is made trusted: on a trusted one nothing is ever delivered, C59.) -/
def Own : Op → Prop
  | .send .. | .processAcks .. | .setHost .. | .removeCircuit .. => True
  | .recv .. | .setTrusted .. => False

/-- The states two new dispatchers can get into together: at any time either of them does something by itself, or receives, as coming from any host, a
datagram the other one has sent at some time before. -/
inductive Together (envA envB : DEnv) (hostsA hostsB : HostRef → Host) : DState → DState → Prop
  | start : Together envA envB hostsA hostsB (DState.init hostsA) (DState.init hostsB)
  | ownA {a b : DState} (op : Op) : Together envA envB hostsA hostsB a b → Own op → Together envA envB hostsA hostsB (step envA a op) b
  | ownB {a b : DState} (op : Op) : Together envA envB hostsA hostsB a b → Own op → Together envA envB hostsA hostsB a (step envB b op)
  | recvA {a b : DState} (r : HostRef) (x : Addr) (dg : Bytes) : Together envA envB hostsA hostsB a b → (x, dg) ∈ sentDatagrams b.trace →
      Together envA envB hostsA hostsB (step envA a (.recv r dg)) b
  | recvB {a b : DState} (r : HostRef) (x : Addr) (dg : Bytes) : Together envA envB hostsA hostsB a b → (x, dg) ∈ sentDatagrams a.trace →
      Together envA envB hostsA hostsB a (step envB b (.recv r dg))

/-- The datagrams received, in order. -/
def receivedDatagrams (tr : List Ev) : List Bytes := tr.filterMap fun | .received _ dg => some dg | _ => none

/-- The messages passed to the subscribers, in order. -/
def deliveredMsgs (tr : List Ev) : List Message := tr.filterMap fun | .delivered m => some m | _ => none

/-- Messages received and accepted for the circuit of some address, in order. -/
def parsedMsgs (tr : List Ev) : List Message := tr.filterMap fun | .parsed _ m => some m | _ => none

end Spec
end Pyogp
