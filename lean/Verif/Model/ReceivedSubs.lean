import Verif.Model.Received
import Verif.Model.EqSubscribers

/-!
# Received messages as objects, and subscribers that work on subscriptions

`receive_check` with the `MessageHandler` of `message/message_handler.py` whose lists of subscribers may change while a message is handed to them, as in `Model/UdpSubscribers`, and with the message being an
object which they may change and send on, as in `Model/Received`.
-/

namespace Pyogp

/-- What a subscriber does with the message object it is given and otherwise, compare `RProg`.  Simplified: a subscriber does not pass messages to the message handler itself. -/
inductive XProg
  | done
  | raise (e : Exc)
  | look (k : Message → XProg)
  | write (m : Message) (k : XProg)
  | send (m : Message) (r : HostRef) (mode : SendMode) (k : Py (Option Bytes) → XProg)
  | forward (r : HostRef) (mode : SendMode) (k : Py (Option Bytes) → XProg)
  | setHost (r : HostRef) (v : Host) (k : XProg)
  | subscribe (name : String) (s : Sub) (k : XProg)
  | unsubscribe (name : String) (s : Sub) (k : Py Unit → XProg)
  | register (name : String) (k : XProg)

/-- What happens at the message handler (for stating properties). -/
inductive HandlerEv
  /-- the subscribers of a name begin to be called -/
  | started (name : String)
  /-- a subscription leads to a call with the message object, as it is at that moment -/
  | called (s : Sub) (m : Message)
  /-- somebody works on subscriptions -/
  | changed (o : SubOp)
  /-- the calls end: the end of the list was reached, or a subscriber raised -/
  | ended (r : Py Unit)
  deriving DecidableEq

/-- What subscribers do, given what the dispatcher did and what happened at the message handler (the last event being their call). -/
abbrev XBehaviour := List Ev → List HandlerEv → XProg

/-- The dispatcher and its message handler (`udpdispatcher.py:76-80`); the calls in `ev` are not used, they are in `log`. -/
structure XState where
  d : DState
  ev : EvState Message := {}
  log : List HandlerEv := []

/-- `message_handler.py:45-49,88-101`, `events.py:33-51`. -/
def XState.change (st : XState) (o : SubOp) : XState := { st with ev := o.apply st.ev, log := st.log ++ [.changed o] }

/-- Run a subscriber, compare `RProg.run`: the message object, the dispatcher and the subscriptions change.
Simplified as there; and a message a subscriber sends is not passed to the message handler of this model but (if outgoing packets are handled) to `env.handler`. -/
def XProg.run (env : DEnv) : XProg → Message → XState → Py Unit × Message × XState
  | .done, m, st => (.ok (), m, st)
  | .raise e, m, st => (.error e, m, st)
  | .look k, m, st => (k m).run env m st
  | .write m' k, _, st => k.run env m' st
  | .send m' r mode k, m, st => (k (Pyogp.send env st.d m' r mode).1).run env m { st with d := (Pyogp.send env st.d m' r mode).2 }
  | .forward r mode k, m, st =>
    (k (Pyogp.send env st.d m r mode).1).run env (afterSend env st.d m r mode) { st with d := (Pyogp.send env st.d m r mode).2 }
  | .setHost r v k, m, st => k.run env m { st with d := { st.d with hosts := fun x => if x = r then v else st.d.hosts x } }
  | .subscribe n s k, m, st => k.run env m (st.change (.subscribe n s))
  | .unsubscribe n s k, m, st => (k (eventUnsubscribe (st.ev.subs n) s).1).run env m (st.change (.unsubscribe n s))
  | .register n k, m, st => k.run env m (st.change (.register n))

/-- `events.py:53-65` (`notify`): by position over the list of subscribers as it then is, compare `notifySubs`.  The name is the one the message had when the subscribers were looked up; `none`: a subscriber is
still to be called when the fuel is used up. -/
def notifyX (env : DEnv) (beh : XBehaviour) (name : String) : Nat → Nat → Message → XState → Option (Py Unit) × Message × XState
  | 0, _, m, st => (none, m, st)
  | fuel + 1, i, m, st =>
    match (st.ev.subs name)[i]? with
    | none => (some (.ok ()), m, st)
    | some s =>
      let st := { st with log := st.log ++ [.called s m] }
      match (beh st.d.trace st.log).run env m st with
      | (.ok _, m, st) => notifyX env beh name fuel (i + 1) m st
      | (.error e, m, st) => (some (.error e), m, st)

/-- `message_handler.py:66-82` (`handle`), compare `handleSubs`. -/
def handleX (env : DEnv) (beh : XBehaviour) (fuel : Nat) (m : Message) (st : XState) : Option (Py Unit) × Message × XState :=
  if m.name ∈ st.ev.names then
    if 0 < (st.ev.subs m.name).length then
      match notifyX env beh m.name fuel 0 m { st with log := st.log ++ [.started m.name] } with
      | (none, m, st) => (none, m, st)
      | (some (.ok _), m, st) => (some (.ok ()), m, { st with log := st.log ++ [.ended (.ok ())] })
      | (some (.error e), m, st) => (some (if e = .keyError then .ok () else .error e), m, { st with log := st.log ++ [.ended (.error e)] })
    else (some (.ok ()), m, st)
  else (some (.ok ()), m, st)

/-- `udpdispatcher.py:115-171` (`receive_check`), compare `receiveObj` and `receiveSubs`: the deserializer asks the same message handler which names are registered. -/
def receiveX (env : DEnv) (beh : XBehaviour) (fuel : Nat) (st : XState) (r : HostRef) (dg : Bytes) : Option (Py (Option Message)) × XState :=
  if 0 < dg.length then
    let a := (st.d.hosts r).addr
    let (d, c) := findCircuit st.d r
    let d := { d with packetsIn := d.packetsIn + 1 }
    let x := deserialize { env.deser d.trace with handled? := some st.ev.names } d.deser dg
    let d := { (d.log (.received a dg)) with deser := x.2 }
    match x.1 with
    | .error e => (some (.error e), { st with d := d })
    | .ok none =>
      match unpackInt env.ser.rt dg .u32 1 (some .big) with
      | .error e => (some (.error e), { st with d := d })
      | .ok pid => (some (.ok none), { st with d := d.setCircuit a (c.collectAck pid.toNat) })
    | .ok (some m) =>
      if c.trusted && !m.trusted then (some (.ok none), { st with d := d })
      else
        let d := (d.setCircuit a (c.handlePacket m)).log (.parsed a m)
        if env.handlePackets then
          match handleX env beh fuel m { st with d := d.log (.delivered m) } with
          | (none, _, st) => (none, st)
          | (some (.error e), _, st) => (some (.error e), st)
          | (some (.ok _), m, st) => (some (.ok (some m)), st)
        else (some (.ok (some m)), { st with d := d })
  else (some (.ok none), st)

/-- What the client does: anything as before, work on subscriptions, or receive a datagram. -/
inductive XOp
  | op (o : Op)
  | subs (o : SubOp)
  | recv (r : HostRef) (dg : Bytes)

def stepX (env : DEnv) (beh : XBehaviour) (fuel : Nat) (st : XState) : XOp → Option XState
  | .op o => some { st with d := step env st.d o }
  | .subs o => some (st.change o)
  | .recv r dg => match receiveX env beh fuel st r dg with
    | (none, _) => none
    | (some _, st) => some st

/-- A history; `none`: a reception does not return. -/
def runX (env : DEnv) (beh : XBehaviour) (fuel : Nat) : XState → List XOp → Option XState
  | st, [] => some st
  | st, o :: ops =>
    match stepX env beh fuel st o with
    | none => none
    | some st => runX env beh fuel st ops

end Pyogp
