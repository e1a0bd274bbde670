import Verif.Model.Circuit
import Verif.Model.Serializer

/-!
# The UDP dispatcher

Models `message/udpdispatcher.py` and the two methods of `network/net.py` it uses.

Everything outside the dispatcher that can influence it (the socket, the subscribers of messages, which names are
registered) is a function of the whole trace of what happened so far, so it may behave in any way at all.
Logging is not modelled.
-/

namespace Pyogp

/-- How a message is sent: `send_message`, `send_reliable(retries)` or as a retransmission. -/
inductive SendMode
  | plain | reliable (retries : Int) | retry
  deriving DecidableEq, Repr

/-- What can be observed of a dispatcher from outside. -/
inductive Ev
  /-- a non-empty datagram was passed to `receive_check` for a host with this address -/
  | received (a : Addr) (dg : Bytes)
  /-- it was parsed into this packet, which was accepted on the circuit -/
  | parsed (a : Addr) (m : Message)
  /-- the packet was passed to the message handler -/
  | delivered (m : Message)
  /-- an outgoing packet was passed to the message handler -/
  | outgoing (m : Message)
  /-- a message object got its packet id and flags (as shown) for being sent to this address -/
  | prepared (a : Addr) (m : Message)
  /-- the socket accepted this datagram for this address -/
  | sent (a : Addr) (dg : Bytes)
  /-- `remove_circuit_data` for this address -/
  | removed (a : Addr)
  deriving DecidableEq, Repr

/-- What the subscribers of a message do when it arrives: they may send messages (and see the result or the exception),
mutate host objects, raise, and return.  (Not modelled here: subscribers that mutate the message, for which see `Model/Received`; not modelled: subscribers that mutate the circuits or
call `receive_check` or `process_acks` themselves.) -/
inductive Prog
  | done
  | raise (e : Exc)
  | send (m : Message) (h : HostRef) (mode : SendMode) (k : Py (Option Bytes) → Prog)
  | setHost (h : HostRef) (v : Host) (k : Prog)

/-- Configuration and environment. `depth` is Python's recursion limit (subscribers of outgoing messages may send
messages, `udpdispatcher.py:199-200`). -/
structure DEnv where
  ser : SerEnv
  deser : List Ev → DeserEnv
  handlePackets : Bool := true
  handleOutgoing : Bool := false
  net : List Ev → Addr → Bytes → Bool
  handler : List Ev → Message → Prog
  depth : Nat := 1000

/-- `udpdispatcher.py:45-104` (`__init__`), plus the store of host objects and the trace.  `receive_packet_id` is always
`-1` and inlined.  `unacked_circuits` refers to circuits by address. -/
structure DState where
  hosts : HostRef → Host
  circuits : Dict Addr Circuit := []
  unackedCircuits : Dict HostRef Addr := []
  packetsIn : Nat := 0
  packetsOut : Nat := 0
  deser : DeserState := {}
  trace : List Ev := []

def DState.log (st : DState) (e : Ev) : DState := { st with trace := st.trace ++ [e] }

/-- The circuit object of an address was mutated. -/
def DState.setCircuit (st : DState) (a : Addr) (c : Circuit) : DState := { st with circuits := st.circuits.set a c }

/-- `udpdispatcher.py:106-113` (`find_circuit`). -/
def findCircuit (st : DState) (r : HostRef) : DState × Circuit :=
  match getCircuit st.circuits (st.hosts r) with
  | some c => (st, c)
  | none =>
    let (m, c) := addCircuit st.circuits r (st.hosts r) (-1)
    ({ st with circuits := m }, c)

/-- `udpdispatcher.py:205-212`: which flags and retries `prepare_packet` gets. -/
def SendMode.prepare (mode : SendMode) (c : Circuit) (m : Message) : Circuit × Message :=
  match mode with
  | .reliable retries => c.preparePacket m flagReliable retries
  | .retry => c.preparePacket m flagResent
  | .plain => c.preparePacket m

/-- `udpdispatcher.py:241-245`: the handler of the exceptions of a failed send.  It writes the packet to the log as text,
and when that raises, so does the send. -/
def sendFailed (m : Message) : Py (Option Bytes) :=
  match m.render with
  | .error e => .error e
  | .ok _ => .ok none

/-- `net.py:36-42` (`send_packet`) and `udpdispatcher.py:214-245`: serialize and hand to the socket.  What goes wrong here is
reported in the log (`sendFailed`).  The socket fails with something other than an `AssertionError`. -/
def handToSocket (env : DEnv) (st : DState) (a : Addr) (m : Message) : Py (Option Bytes) × DState :=
  match serialize env.ser m with
  | .error _ => (sendFailed m, st)
  | .ok none => (sendFailed m, st)
  | .ok (some dg) =>
    if env.net st.trace a dg then (.ok (some dg), { (st.log (.sent a dg)) with packetsOut := st.packetsOut + 1 })
    else (sendFailed m, st)

/-- `udpdispatcher.py:202-245`: the part of `__send_message` after the outgoing handlers. -/
def transmit (env : DEnv) (st : DState) (m : Message) (r : HostRef) (mode : SendMode) : Py (Option Bytes) × DState :=
  let a := (st.hosts r).addr
  let (st, c) := findCircuit st r
  let (c, m) := mode.prepare c m
  let st := (st.setCircuit a c).log (.prepared a m)
  let st := match mode with
    | .reliable _ => if c.unackCount ≤ 0 then { st with unackedCircuits := st.unackedCircuits.set r a } else st
    | _ => st
  handToSocket env st a m

/-- Run what the subscribers do. -/
def Prog.run (send : DState → Message → HostRef → SendMode → Py (Option Bytes) × DState) : Prog → DState → Py Unit × DState
  | .done, st => (.ok (), st)
  | .raise e, st => (.error e, st)
  | .send m h mode k, st => (k (send st m h mode).1).run send (send st m h mode).2
  | .setHost h v k, st => k.run send { st with hosts := fun x => if x = h then v else st.hosts x }

/-- `udpdispatcher.py:187-245` (`__send_message`) with `message` a `Message` object (not a factory), `n` being the rest of
the recursion limit. -/
def sendWith (env : DEnv) : Nat → DState → Message → HostRef → SendMode → Py (Option Bytes) × DState
  | 0, st, _, _, _ => (.error .runtimeError, st)
  | n + 1, st, m, r, mode =>
    if !(st.hosts r).isOk then (.ok none, st)
    else if env.handleOutgoing then
      let st := st.log (.outgoing m)
      match (env.handler st.trace m).run (sendWith env n) st with
      | (.error e, st) => (.error e, st)
      | (.ok _, st) => transmit env st m r mode
    else transmit env st m r mode

/-- `udpdispatcher.py:173-185` (`send_reliable`, `send_message`). -/
def send (env : DEnv) (st : DState) (m : Message) (r : HostRef) (mode : SendMode) : Py (Option Bytes) × DState :=
  sendWith env env.depth st m r mode

/-- An argument of `__send_message`, which does not check that it is given a message and a host, in this order. -/
inductive SendArg
  | message (m : Message)
  | host (r : HostRef)

/-- `host.is_ok()` (`udpdispatcher.py:190`): `Host` has this method (`circuit.py:31-36`), `Message` has not (`message.py:83-209`, `template.py:27-48`). -/
def SendArg.isOk (st : DState) : SendArg → Py Bool
  | .host r => .ok (st.hosts r).isOk
  | .message _ => .error .attributeError

/-- `udpdispatcher.py:187-197` (`__send_message`) for any arguments.  What is not a message is called (line 196), which a `Host` cannot be.
Simplified: a callable that returns a message is that message. -/
def sendAny (env : DEnv) (st : DState) (message host : SendArg) (mode : SendMode) : Py (Option Bytes) × DState :=
  match host.isOk st with
  | .error e => (.error e, st)
  | .ok ok =>
    if !ok then (.ok none, st)
    else match message, host with
      | .message m, .host r => send env st m r mode
      | .host _, _ => (.error .typeError, st)
      | _, .message _ => (.error .attributeError, st)

/-- `udpdispatcher.py:179-182` (`send_retry(message, host)`): passes its arguments in the wrong order. -/
def sendRetry (env : DEnv) (st : DState) (m : Message) (r : HostRef) : Py (Option Bytes) × DState :=
  sendAny env st (.host r) (.message m) .retry

/-- `udpdispatcher.py:115-171` (`receive_check`), with `msg_size = len(msg_buf)`. -/
def receiveCheck (env : DEnv) (st : DState) (r : HostRef) (dg : Bytes) : Py (Option Message) × DState :=
  if 0 < dg.length then
    let a := (st.hosts r).addr
    let (st, c) := findCircuit st r
    let st := { st with packetsIn := st.packetsIn + 1 }
    let d := deserialize (env.deser st.trace) st.deser dg
    let st := { (st.log (.received a dg)) with deser := d.2 }
    match d.1 with
    | .error e => (.error e, st)
    | .ok none =>
      match unpackInt env.ser.rt dg .u32 1 (some .big) with
      | .error e => (.error e, st)
      | .ok pid => (.ok none, st.setCircuit a (c.collectAck pid.toNat))
    | .ok (some m) =>
      if c.trusted && !m.trusted then (.ok none, st)
      else
        let st := (st.setCircuit a (c.handlePacket m)).log (.parsed a m)
        if env.handlePackets then
          let st := st.log (.delivered m)
          match (env.handler st.trace m).run (sendWith env env.depth) st with
          | (.error e, st) => (.error e, st)
          | (.ok _, st) => (.ok (some m), st)
        else (.ok (some m), st)
  else (.ok none, st)

/-- `udpdispatcher.py:256-281` (`__resend_all_unacked`): the first unacked packet of a circuit in `unacked_circuits`
raises, for a `Message` has no attribute `buffer` (line 270). -/
def resendAll (st : DState) : Py Unit :=
  if st.unackedCircuits.values.any (fun a =>
      match st.circuits.get? a with
      | some c => !c.unacked.isEmpty
      | none => false)
  then .error .attributeError else .ok ()

/-- `udpdispatcher.py:298-299`: one more id in the message. -/
def addAckBlock (msg : Message) (pid : Nat) : Message := msg.addBlock (Block.mk' "Packets" [("ID", .num (.int pid))])

/-- `udpdispatcher.py:289-309`: the loop over the queued ids of one circuit. -/
def ackLoop (env : DEnv) (h : HostRef) : List Nat → Nat → Message → DState → Py (Nat × Message) × DState
  | [], n, msg, st => (.ok (n, msg), st)
  | pid :: ids, n, msg, st =>
    let msg := if n = 0 then Message.new "PacketAck" [] else msg
    let msg := addAckBlock msg pid
    let n := n + 1
    if 250 < n then
      match send env st msg h .plain with
      | (.error e, st) => (.error e, st)
      | (.ok _, st) => ackLoop env h ids 0 msg st
    else ackLoop env h ids n msg st

/-- `udpdispatcher.py:289-315`: the body of the loop over circuits. -/
def ackCircuit (env : DEnv) (st : DState) (a : Addr) : Py Unit × DState :=
  match st.circuits.get? a with
  | none => (.ok (), st)
  | some c =>
    match ackLoop env c.host c.acks 0 (Message.new "PacketAck" []) st with
    | (.error e, st) => (.error e, st)
    | (.ok (n, msg), st) =>
      let r : Py (Option Bytes) × DState := if 0 < n then send env st msg c.host .plain else (.ok none, st)
      match r with
      | (.error e, st) => (.error e, st)
      | (.ok _, st) =>
        match st.circuits.get? a with
        | none => (.ok (), st)
        | some c => (.ok (), st.setCircuit a { c with acks := [] })

/-- `udpdispatcher.py:283-315` (`__send_acks`) over the circuits in the iteration order of the dictionary. -/
def sendAcks (env : DEnv) : List Addr → DState → Py Unit × DState
  | [], st => (.ok (), st)
  | a :: as, st =>
    match ackCircuit env st a with
    | (.error e, st) => (.error e, st)
    | (.ok _, st) => sendAcks env as st

/-- `udpdispatcher.py:247-254` (`process_acks`). -/
def processAcks (env : DEnv) (st : DState) (order : List Addr) : Py Unit × DState :=
  match resendAll st with
  | .error e => (.error e, st)
  | .ok _ => sendAcks env order st

/-- `udpdispatcher.py:317-322` (`has_unacked`). -/
def hasUnacked (st : DState) : Bool := st.circuits.values.any (fun c => 0 < c.acks.length)

/-- `net.py:44-54` (`receive_packet`): the one `sender` host object of the client (`net.py:30-34`, reference `sender`) is
overwritten with the address of the datagram just read. -/
def netReceive (st : DState) (sender : HostRef) (ip : String) (port : Nat) : DState :=
  { st with hosts := fun x => if x = sender then ⟨.str ip, some port⟩ else st.hosts x }

/-- What users of the dispatcher do to it. -/
inductive Op
  | send (m : Message) (h : HostRef) (mode : SendMode)
  | recv (h : HostRef) (dg : Bytes)
  | processAcks (order : List Addr)
  | setHost (h : HostRef) (v : Host)
  | removeCircuit (h : HostRef)
  | setTrusted (a : Addr) (b : Bool)

/-- One operation (its result is not needed here). -/
def step (env : DEnv) (st : DState) : Op → DState
  | .send m h mode => (send env st m h mode).2
  | .recv h dg => (receiveCheck env st h dg).2
  | .processAcks order => (processAcks env st order).2
  | .setHost h v => { st with hosts := fun x => if x = h then v else st.hosts x }
  | .removeCircuit h => ({ st with circuits := removeCircuitData st.circuits (st.hosts h) }).log (.removed (st.hosts h).addr)
  | .setTrusted a b =>
    match st.circuits.get? a with
    | none => st
    | some c => st.setCircuit a { c with trusted := b }

/-- A history of operations. -/
def runOps (env : DEnv) (st : DState) (ops : List Op) : DState := ops.foldl (step env) st

/-- `udpdispatcher.py:45-104`: a new dispatcher. -/
def DState.init (hosts : HostRef → Host) : DState := { hosts := hosts }

end Pyogp
