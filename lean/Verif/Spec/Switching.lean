import Verif.Spec.Circuit
import Verif.Model.Switching
import Batteries.Data.List.Perm

/-!
# Specification: packets on their way
-/

namespace Pyogp.Spec

/-- The datagrams that the prepared packets of a trace are, with their destinations, in the order in which the packets were prepared. -/
def preparedDatagrams (ser : SerEnv) (tr : List Ev) : List (Addr × Bytes) :=
  (preparedMsgs tr).filterMap fun x => match serialize ser x.2 with
    | .ok (some dg) => some (x.1, dg)
    | _ => none

/-- The datagrams that wait for the socket. -/
def waitingForSocket (ts : List Sending) : List (Addr × Bytes) :=
  ts.filterMap fun t => match t.stage with
    | .socket a _ dg => some (a, dg)
    | .subscribers _ => none

/-- An act that leaves a `process_acks` in progress alone: it is not one of another loop that receives or acknowledges, does not redirect hosts, and
no subscriber interferes with the packets of the `process_acks`. -/
def Elsewhere (s : SState) : SAct → Prop
  | .recv _ _ => False
  | .acks _ => False
  | .setHost _ _ => False
  | .edit i _ => ∀ t, s.tasks[i]? = some t → t.after = none
  | .throw i => ∀ t, s.tasks[i]? = some t → t.after = none
  | _ => True

/-- All acts of a history are such acts. -/
def Undisturbed (env : DEnv) : SState → List SAct → Prop
  | _, [] => True
  | s, x :: xs => Elsewhere s x ∧ Undisturbed env (sstep env s x) xs

/-- Some packet prepared in this part of a history acknowledges `x` to the peer at `b`. -/
def AckedIn (tr : List Ev) (b : Addr) (x : Nat) : Prop := ∃ m ids, (b, m) ∈ preparedMsgs tr ∧ IsAckFor m ids ∧ x ∈ ids

/-- Some `process_acks` is showing the subscribers a packet for the host `h` that acknowledges `x`. -/
def BeingAcked (s : SState) (h : HostRef) (x : Nat) : Prop :=
  ∃ t ∈ s.tasks, t.after.isSome = true ∧ t.host = h ∧ ∃ m ids, t.stage = .subscribers m ∧ IsAckFor m ids ∧ x ∈ ids

/-- Every `process_acks` that is busy with the circuit of `a` still reads the circuit's own list of ids, and will read on. -/
def StillReading (s : SState) (a : Addr) : Prop :=
  ∀ t ∈ s.tasks, ∀ p, t.after = some p → p.circuit = .inMap a → p.own = none ∧ p.final = false

/-- An act that is in nobody's way as far as the acknowledgements from the circuit of `a` to the host `h` are concerned: no subscriber changes the packets
of a `process_acks` or raises at one, the host is not redirected, and the circuit of `a` is not removed.  Anybody may send, receive, and acknowledge. -/
def Harmless (a : Addr) (h : HostRef) (s : SState) : SAct → Prop
  | .edit i _ => ∀ t, s.tasks[i]? = some t → t.after = none
  | .throw i => ∀ t, s.tasks[i]? = some t → t.after = none
  | .setHost h' _ => h' ≠ h
  | .removeCircuit h' => (s.disp.hosts h').addr ≠ a
  | _ => True

/-- All acts of a history are such acts. -/
def AllHarmless (env : DEnv) (a : Addr) (h : HostRef) : SState → List SAct → Prop
  | _, [] => True
  | s, x :: xs => Harmless a h s x ∧ AllHarmless env a h (sstep env s x) xs

end Pyogp.Spec
