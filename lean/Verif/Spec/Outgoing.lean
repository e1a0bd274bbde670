import Verif.Model.Outgoing
import Verif.Spec.Received

/-!
# Specification: outgoing messages as objects
-/

namespace Pyogp.Spec

/-- The environment in which nobody is told of outgoing messages. -/
def unwatched (env : DEnv) : DEnv := { env with handleOutgoing := false, depth := 1 }

/-- A subscriber that sends the message it is given on, and passes on what is raised by that. -/
def sendsItOn (r : HostRef) (mode : SendMode) : RProg :=
  .forward r mode (fun x => match x with | .ok _ => .done | .error e => .raise e)

/-- The subscriber reads, sends and raises: it changes neither the name and blocks of the message nor hosts. -/
inductive OnlySends : RProg → Prop
  | done : OnlySends .done
  | raise (e : Exc) : OnlySends (.raise e)
  | look (k : Message → RProg) : (∀ m, OnlySends (k m)) → OnlySends (.look k)
  | send (m : Message) (r : HostRef) (mode : SendMode) (k : Py (Option Bytes) → RProg) : (∀ x, OnlySends (k x)) → OnlySends (.send m r mode k)
  | forward (r : HostRef) (mode : SendMode) (k : Py (Option Bytes) → RProg) : (∀ x, OnlySends (k x)) → OnlySends (.forward r mode k)

end Pyogp.Spec
