import Verif.Model.Dispatcher
import Verif.Model.EqSubscribers

/-!
# The UDP dispatcher and the subscribers of its messages

`message/udpdispatcher.py` with the `MessageHandler` of `message/message_handler.py` in place of the oracle `DEnv.handler` of `Model/Dispatcher`.  (That field of `DEnv` is not used here, nor is `handled?` of the environment of the deserializer: `udpdispatcher.py:99-103`
gives the deserializer the same message handler, so a message is parsed if its name is registered at that moment or parsing is not deferred.)
-/

namespace Pyogp

/-- What a subscriber does: send messages (and see the result or the exception), mutate host objects, change subscriptions, raise, and return.  Simplified: a subscriber does not pass
messages to the message handler itself (but those it sends may be passed to it, `udpdispatcher.py:199-200`). -/
inductive SProg
  | done
  | raise (e : Exc)
  | send (m : Message) (h : HostRef) (mode : SendMode) (k : Py (Option Bytes) → SProg)
  | setHost (h : HostRef) (v : Host) (k : SProg)
  | subscribe (name : String) (s : Sub) (k : SProg)
  | unsubscribe (name : String) (s : Sub) (k : Py Unit → SProg)
  | register (name : String) (k : SProg)

/-- What subscribers do, given what the dispatcher did and the calls made so far (the last one being theirs). -/
abbrev SBehaviour := List Ev → List (Call Message) → SProg

/-- The dispatcher and its message handler (`udpdispatcher.py:76-80`). -/
structure SubsState where
  d : DState
  ev : EvState Message := {}

/-- The type of sending functions; `none`: a subscriber is still running when the fuel is used up. -/
abbrev SendFn := SubsState → Message → HostRef → SendMode → Option (Py (Option Bytes)) × SubsState

/-- Run a subscriber. -/
def SProg.run (send : SendFn) : SProg → SubsState → Option (Py Unit) × SubsState
  | .done, st => (some (.ok ()), st)
  | .raise e, st => (some (.error e), st)
  | .send m r mode k, st =>
    match send st m r mode with
    | (none, st) => (none, st)
    | (some x, st) => (k x).run send st
  | .setHost r v k, st => k.run send { st with d := { st.d with hosts := fun x => if x = r then v else st.d.hosts x } }
  | .subscribe n s k, st => k.run send { st with ev := SubOp.apply st.ev (.subscribe n s) }
  | .unsubscribe n s k, st => (k (eventUnsubscribe (st.ev.subs n) s).1).run send { st with ev := SubOp.apply st.ev (.unsubscribe n s) }
  | .register n k, st => k.run send { st with ev := SubOp.apply st.ev (.register n) }

/-- `events.py:53-65` (`notify`), compare `notifyLoop`. -/
def notifySubs (beh : SBehaviour) (send : SendFn) (level : Nat) (m : Message) : Nat → Nat → SubsState → Option (Py Unit) × SubsState
  | 0, _, st => (none, st)
  | fuel + 1, i, st =>
    match (st.ev.subs m.name)[i]? with
    | none => (some (.ok ()), st)
    | some s =>
      let st := { st with ev := st.ev.log ⟨level, m.name, s.handler, (m, s.args), s.kwargs⟩ }
      match (beh st.d.trace st.ev.calls).run send st with
      | (some (.ok _), st) => notifySubs beh send level m fuel (i + 1) st
      | (some (.error e), st) => (some (.error e), st)
      | (none, st) => (none, st)

/-- `message_handler.py:66-82` (`handle`), compare `handleMessage`. -/
def handleSubs (beh : SBehaviour) (send : SendFn) (fuel level : Nat) (m : Message) (st : SubsState) : Option (Py Unit) × SubsState :=
  if m.name ∈ st.ev.names then
    if 0 < (st.ev.subs m.name).length then
      match notifySubs beh send level m fuel 0 st with
      | (some (.error e), st) => (some (if e = .keyError then .ok () else .error e), st)
      | r => r
    else (some (.ok ()), st)
  else (some (.ok ()), st)

/-- `udpdispatcher.py:187-245` (`__send_message`), compare `sendWith`. -/
def sendSubs (env : DEnv) (beh : SBehaviour) (fuel : Nat) : Nat → SendFn
  | 0, st, _, _, _ => (some (.error .runtimeError), st)
  | n + 1, st, m, r, mode =>
    if !(st.d.hosts r).isOk then (some (.ok none), st)
    else if env.handleOutgoing then
      match handleSubs beh (sendSubs env beh fuel n) fuel n m { st with d := st.d.log (.outgoing m) } with
      | (none, st) => (none, st)
      | (some (.error e), st) => (some (.error e), st)
      | (some (.ok _), st) =>
        let t := transmit env st.d m r mode
        (some t.1, { st with d := t.2 })
    else
      let t := transmit env st.d m r mode
      (some t.1, { st with d := t.2 })

/-- `udpdispatcher.py:115-171` (`receive_check`), compare `receiveCheck`. -/
def receiveSubs (env : DEnv) (beh : SBehaviour) (fuel : Nat) (st : SubsState) (r : HostRef) (dg : Bytes) : Option (Py (Option Message)) × SubsState :=
  if 0 < dg.length then
    let a := (st.d.hosts r).addr
    let (d, c) := findCircuit st.d r
    let d := { d with packetsIn := d.packetsIn + 1 }
    let x := deserialize { env.deser d.trace with handled? := some st.ev.names } d.deser dg
    let d := { (d.log (.received a dg)) with deser := x.2 }
    match x.1 with
    | .error e => (some (.error e), { st with d := d })
    | .ok none =>
      match unpackInt env.ser.rt dg .u32 1 (some .big) with
      | .error e => (some (.error e), { st with d := d })
      | .ok pid => (some (.ok none), { st with d := d.setCircuit a (c.collectAck pid.toNat) })
    | .ok (some m) =>
      if c.trusted && !m.trusted then (some (.ok none), { st with d := d })
      else
        let d := (d.setCircuit a (c.handlePacket m)).log (.parsed a m)
        if env.handlePackets then
          match handleSubs beh (sendSubs env beh fuel env.depth) fuel env.depth m { st with d := d.log (.delivered m) } with
          | (none, st) => (none, st)
          | (some (.error e), st) => (some (.error e), st)
          | (some (.ok _), st) => (some (.ok (some m)), st)
        else (some (.ok (some m)), { st with d := d })
  else (some (.ok none), st)

/-- `udpdispatcher.py:289-309`, compare `ackLoop`. -/
def ackLoopSubs (env : DEnv) (beh : SBehaviour) (fuel : Nat) (h : HostRef) : List Nat → Nat → Message → SubsState → Option (Py (Nat × Message)) × SubsState
  | [], n, msg, st => (some (.ok (n, msg)), st)
  | pid :: ids, n, msg, st =>
    let msg := if n = 0 then Message.new "PacketAck" [] else msg
    let msg := addAckBlock msg pid
    let n := n + 1
    if 250 < n then
      match sendSubs env beh fuel env.depth st msg h .plain with
      | (none, st) => (none, st)
      | (some (.error e), st) => (some (.error e), st)
      | (some (.ok _), st) => ackLoopSubs env beh fuel h ids 0 msg st
    else ackLoopSubs env beh fuel h ids n msg st

/-- `udpdispatcher.py:289-315`, compare `ackCircuit`. -/
def ackCircuitSubs (env : DEnv) (beh : SBehaviour) (fuel : Nat) (st : SubsState) (a : Addr) : Option (Py Unit) × SubsState :=
  match st.d.circuits.get? a with
  | none => (some (.ok ()), st)
  | some c =>
    match ackLoopSubs env beh fuel c.host c.acks 0 (Message.new "PacketAck" []) st with
    | (none, st) => (none, st)
    | (some (.error e), st) => (some (.error e), st)
    | (some (.ok (n, msg)), st) =>
      let r : Option (Py (Option Bytes)) × SubsState := if 0 < n then sendSubs env beh fuel env.depth st msg c.host .plain else (some (.ok none), st)
      match r with
      | (none, st) => (none, st)
      | (some (.error e), st) => (some (.error e), st)
      | (some (.ok _), st) =>
        match st.d.circuits.get? a with
        | none => (some (.ok ()), st)
        | some c => (some (.ok ()), { st with d := st.d.setCircuit a { c with acks := [] } })

/-- `udpdispatcher.py:283-315`, compare `sendAcks`. -/
def sendAcksSubs (env : DEnv) (beh : SBehaviour) (fuel : Nat) : List Addr → SubsState → Option (Py Unit) × SubsState
  | [], st => (some (.ok ()), st)
  | a :: as, st =>
    match ackCircuitSubs env beh fuel st a with
    | (none, st) => (none, st)
    | (some (.error e), st) => (some (.error e), st)
    | (some (.ok _), st) => sendAcksSubs env beh fuel as st

/-- `udpdispatcher.py:247-254` (`process_acks`), compare `processAcks`. -/
def processAcksSubs (env : DEnv) (beh : SBehaviour) (fuel : Nat) (st : SubsState) (order : List Addr) : Option (Py Unit) × SubsState :=
  match resendAll st.d with
  | .error e => (some (.error e), st)
  | .ok _ => sendAcksSubs env beh fuel order st

/-- What a client does: operations of the dispatcher, or changes of subscriptions. -/
inductive SOp
  | op (o : Op)
  | subs (o : SubOp)

/-- What an operation returns or raises. -/
inductive OpResult
  | sent (r : Py (Option Bytes))
  | received (r : Py (Option Message))
  | acks (r : Py Unit)
  | nothing
  deriving DecidableEq

/-- One operation, compare `step`. -/
def stepSubs (env : DEnv) (beh : SBehaviour) (fuel : Nat) (st : SubsState) : SOp → Option OpResult × SubsState
  | .op (.send m h mode) =>
    let x := sendSubs env beh fuel env.depth st m h mode
    (x.1.map .sent, x.2)
  | .op (.recv h dg) =>
    let x := receiveSubs env beh fuel st h dg
    (x.1.map .received, x.2)
  | .op (.processAcks order) =>
    let x := processAcksSubs env beh fuel st order
    (x.1.map .acks, x.2)
  | .op o => (some .nothing, { st with d := step env st.d o })
  | .subs o => (some .nothing, { st with ev := o.apply st.ev })

/-- A history, with the results of its operations; `none`: an operation does not return. -/
def runSubs (env : DEnv) (beh : SBehaviour) (fuel : Nat) : SubsState → List SOp → Option (List OpResult × SubsState)
  | st, [] => some ([], st)
  | st, o :: ops =>
    match stepSubs env beh fuel st o with
    | (none, _) => none
    | (some r, st) => (runSubs env beh fuel st ops).map (fun x => (r :: x.1, x.2))

end Pyogp
