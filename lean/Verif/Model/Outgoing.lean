import Verif.Model.Received

/-!
# Outgoing messages as objects

With `HANDLE_OUTGOING_PACKETS` the message object that is being sent is handed to the subscribers of its name, which may change it before it gets a packet id and leaves.  In `Model/Dispatcher` it is a value; here
both outgoing and received messages are objects in the hands of subscribers (`RProg`), and what a subscriber sends is again handed to subscribers.
-/

namespace Pyogp

/-- The subscribers of each name, which may depend on everything that happened. -/
abbrev ObjSubs := List Ev → String → List RProg

/-- Sending functions; the message is the object as it is afterwards. -/
abbrev ObjSend := DState → Message → HostRef → SendMode → Py (Option Bytes) × Message × DState

/-- Run a subscriber, compare `RProg.run`.  Simplified: it does not look at another message it sent afterwards. -/
def RProg.runO (send : ObjSend) : RProg → Message → DState → Py Unit × Message × DState
  | .done, m, st => (.ok (), m, st)
  | .raise e, m, st => (.error e, m, st)
  | .look k, m, st => (k m).runO send m st
  | .write m' k, _, st => k.runO send m' st
  | .send m' r mode k, m, st => (k (send st m' r mode).1).runO send m (send st m' r mode).2.2
  | .forward r mode k, m, st => (k (send st m r mode).1).runO send (send st m r mode).2.1 (send st m r mode).2.2
  | .setHost r v k, m, st => k.runO send m { st with hosts := fun x => if x = r then v else st.hosts x }

/-- `events.py:53-65`, compare `notifyObj`.  Simplified: subscribers do not subscribe or unsubscribe (those that do are in `Model/ReceivedSubs`). -/
def notifyO (send : ObjSend) : List RProg → Message → DState → Py Unit × Message × DState
  | [], m, st => (.ok (), m, st)
  | p :: ps, m, st =>
    match p.runO send m st with
    | (.error e, m, st) => (.error e, m, st)
    | (.ok _, m, st) => notifyO send ps m st

/-- `message_handler.py:66-83` (`handle`, which catches `KeyError`). -/
def handleO (send : ObjSend) (ps : List RProg) (m : Message) (st : DState) : Py Unit × Message × DState :=
  match notifyO send ps m st with
  | (.ok _, m, st) => (.ok (), m, st)
  | (.error e, m, st) => (if e = .keyError then .ok () else .error e, m, st)

/-- `udpdispatcher.py:187-245` (`__send_message`), compare `sendWith`; the first argument is what is left of Python's recursion limit. -/
def sendO (env : DEnv) (subs : ObjSubs) : Nat → ObjSend
  | 0, st, m, _, _ => (.error .runtimeError, m, st)
  | n + 1, st, m, r, mode =>
    if !(st.hosts r).isOk then (.ok none, m, st)
    else if env.handleOutgoing then
      let st := st.log (.outgoing m)
      match handleO (sendO env subs n) (subs st.trace m.name) m st with
      | (.error e, m, st) => (.error e, m, st)
      | (.ok _, m, st) => ((transmit env st m r mode).1, (mode.prepare (findCircuit st r).2 m).2, (transmit env st m r mode).2)
    else ((transmit env st m r mode).1, (mode.prepare (findCircuit st r).2 m).2, (transmit env st m r mode).2)

/-- `udpdispatcher.py:115-171` (`receive_check`), compare `receiveObj`. -/
def receiveO (env : DEnv) (subs : ObjSubs) (st : DState) (r : HostRef) (dg : Bytes) : Py (Option Message) × DState :=
  if 0 < dg.length then
    let a := (st.hosts r).addr
    let (st, c) := findCircuit st r
    let st := { st with packetsIn := st.packetsIn + 1 }
    let d := deserialize (env.deser st.trace) st.deser dg
    let st := { (st.log (.received a dg)) with deser := d.2 }
    match d.1 with
    | .error e => (.error e, st)
    | .ok none =>
      match unpackInt env.ser.rt dg .u32 1 (some .big) with
      | .error e => (.error e, st)
      | .ok pid => (.ok none, st.setCircuit a (c.collectAck pid.toNat))
    | .ok (some m) =>
      if c.trusted && !m.trusted then (.ok none, st)
      else
        let st := (st.setCircuit a (c.handlePacket m)).log (.parsed a m)
        if env.handlePackets then
          let st := st.log (.delivered m)
          match handleO (sendO env subs env.depth) (subs st.trace m.name) m st with
          | (.error e, _, st) => (.error e, st)
          | (.ok _, m, st) => (.ok (some m), st)
        else (.ok (some m), st)
  else (.ok none, st)

/-- `udpdispatcher.py:289-309`, compare `ackLoop`: after a packet is full and sent, the next id starts a new message. -/
def ackLoopO (env : DEnv) (subs : ObjSubs) (h : HostRef) : List Nat → Nat → Message → DState → Py (Nat × Message) × DState
  | [], n, msg, st => (.ok (n, msg), st)
  | pid :: ids, n, msg, st =>
    let msg := if n = 0 then Message.new "PacketAck" [] else msg
    let msg := addAckBlock msg pid
    let n := n + 1
    if 250 < n then
      match sendO env subs env.depth st msg h .plain with
      | (.error e, _, st) => (.error e, st)
      | (.ok _, msg, st) => ackLoopO env subs h ids 0 msg st
    else ackLoopO env subs h ids n msg st

/-- `udpdispatcher.py:289-315`, compare `ackCircuit`. -/
def ackCircuitO (env : DEnv) (subs : ObjSubs) (st : DState) (a : Addr) : Py Unit × DState :=
  match st.circuits.get? a with
  | none => (.ok (), st)
  | some c =>
    match ackLoopO env subs c.host c.acks 0 (Message.new "PacketAck" []) st with
    | (.error e, st) => (.error e, st)
    | (.ok (n, msg), st) =>
      let r : Py (Option Bytes) × DState := if 0 < n then ((sendO env subs env.depth st msg c.host .plain).1, (sendO env subs env.depth st msg c.host .plain).2.2) else (.ok none, st)
      match r with
      | (.error e, st) => (.error e, st)
      | (.ok _, st) =>
        match st.circuits.get? a with
        | none => (.ok (), st)
        | some c => (.ok (), st.setCircuit a { c with acks := [] })

/-- `udpdispatcher.py:283-315` (`__send_acks`), compare `sendAcks`. -/
def sendAcksO (env : DEnv) (subs : ObjSubs) : List Addr → DState → Py Unit × DState
  | [], st => (.ok (), st)
  | a :: as, st =>
    match ackCircuitO env subs st a with
    | (.error e, st) => (.error e, st)
    | (.ok _, st) => sendAcksO env subs as st

/-- `udpdispatcher.py:247-254` (`process_acks`), compare `processAcks`. -/
def processAcksO (env : DEnv) (subs : ObjSubs) (st : DState) (order : List Addr) : Py Unit × DState :=
  match resendAll st with
  | .error e => (.error e, st)
  | .ok _ => sendAcksO env subs order st

/-- One operation, compare `step`. -/
def stepO (env : DEnv) (subs : ObjSubs) (st : DState) : Op → DState
  | .send m h mode => (sendO env subs env.depth st m h mode).2.2
  | .recv h dg => (receiveO env subs st h dg).2
  | .processAcks order => (processAcksO env subs st order).2
  | o => step env st o

/-- A history. -/
def runO (env : DEnv) (subs : ObjSubs) (st : DState) (ops : List Op) : DState := ops.foldl (stepO env subs) st

end Pyogp
