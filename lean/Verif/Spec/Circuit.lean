import Verif.Model.Dispatcher

/-!
# Specification: the history of a circuit

What happened between us and one peer address since its circuit was last removed: packets given an id for sending to it, and
packets accepted from it, in order.
-/

namespace Pyogp.Spec

inductive CEv
  /-- a packet got its id and flags for being sent to the peer -/
  | out (m : Message)
  /-- a packet of the peer was accepted -/
  | inn (m : Message)

/-- The history of the circuit of address `a`, from the trace of the dispatcher. -/
def circuitHistory (a : Addr) (tr : List Ev) : List CEv :=
  tr.foldl (fun h e =>
    match e with
    | .prepared a' m => if a' = a then h ++ [.out m] else h
    | .parsed a' m => if a' = a then h ++ [.inn m] else h
    | .removed a' => if a' = a then [] else h
    | _ => h) []

/-- The ids of the packets sent, in order. -/
def outIds (h : List CEv) : List Nat :=
  h.filterMap fun | .out m => some m.packetId | .inn _ => none

/-- Some packet with this id was prepared as a reliable one (flag `0x40`), and no packet accepted since acknowledges it. -/
def Waiting (h : List CEv) (id : Nat) : Prop :=
  ∃ pre m post, h = pre ++ .out m :: post ∧ m.packetId = id ∧ m.sendFlags &&& 0x40 ≠ 0 ∧
    ∀ m', CEv.inn m' ∈ post → id ∉ m'.acks

/-- How many datagrams were received / handed to the socket. -/
def receivedCount (tr : List Ev) : Nat := (tr.filter fun | .received _ _ => true | _ => false).length
def sentCount (tr : List Ev) : Nat := (tr.filter fun | .sent _ _ => true | _ => false).length

end Pyogp.Spec

namespace Pyogp.Spec

/-- The packet ids a dispatcher still has to acknowledge to the peer at address `a`. -/
def pending (st : DState) (a : Addr) : List Nat :=
  match st.circuits.get? a with
  | some c => c.acks
  | none => []

/-- The ids of the packets sent to address `a` that wait for an acknowledgement. -/
def waitingIds (st : DState) (a : Addr) : List Nat :=
  match st.circuits.get? a with
  | some c => c.unacked.keys
  | none => []

/-- The messages given an id for sending, with their destination, in order. -/
def preparedMsgs (tr : List Ev) : List (Addr × Message) :=
  tr.filterMap fun | .prepared a m => some (a, m) | _ => none

/-- The datagrams the socket accepted, with their destination, in order. -/
def sentDatagrams (tr : List Ev) : List (Addr × Bytes) :=
  tr.filterMap fun | .sent a dg => some (a, dg) | _ => none

/-- A `Packets` block with one packet id. -/
def packetsBlock (pid : Nat) : BlockData :=
  { name := "Packets", vars := [("ID", { name := "ID", data := .num (.int pid) })], varList := ["ID"] }

/-- A `PacketAck` message acknowledging exactly these ids, in this order. -/
def IsAckFor (m : Message) (ids : List Nat) : Prop :=
  m.name = "PacketAck" ∧ m.blocks = [("Packets", ids.map packetsBlock)]

end Pyogp.Spec
