import Verif.Model.Objects

/-!
# Received messages as objects

`receive_check` makes one `Message` object, which it hands to the subscribers one after the other and returns.  In `Model/Dispatcher` this is a value; here the
subscribers may change it and send it on.
-/

namespace Pyogp

/-- What a subscriber does with the message object it is given and otherwise. -/
inductive RProg
  | done
  | raise (e : Exc)
  /-- look at the message object, as it now is -/
  | look (k : Message → RProg)
  /-- change it in any way -/
  | write (m : Message) (k : RProg)
  /-- send another message -/
  | send (m : Message) (r : HostRef) (mode : SendMode) (k : Py (Option Bytes) → RProg)
  /-- send the message object itself -/
  | forward (r : HostRef) (mode : SendMode) (k : Py (Option Bytes) → RProg)
  | setHost (r : HostRef) (v : Host) (k : RProg)

/-- `circuit.py:69-86` (`prepare_packet`) changes the object that is sent. -/
def afterSend (env : DEnv) (st : DState) (m : Message) (r : HostRef) (mode : SendMode) : Message :=
  match preparedIn env st m r with
  | none => m
  | some d => (mode.prepare (findCircuit d r).2 m).2

/-- Run a subscriber: the message object and the dispatcher change.
Simplified: a packet in `unacked_packets` has the value it had when it was sent (C85 is about its later changes). -/
def RProg.run (env : DEnv) : RProg → Message → DState → Py Unit × Message × DState
  | .done, m, st => (.ok (), m, st)
  | .raise e, m, st => (.error e, m, st)
  | .look k, m, st => (k m).run env m st
  | .write m' k, _, st => k.run env m' st
  | .send m' r mode k, m, st => (k (Pyogp.send env st m' r mode).1).run env m (Pyogp.send env st m' r mode).2
  | .forward r mode k, m, st => (k (Pyogp.send env st m r mode).1).run env (afterSend env st m r mode) (Pyogp.send env st m r mode).2
  | .setHost r v k, m, st => k.run env m { st with hosts := fun x => if x = r then v else st.hosts x }

/-- `events.py:53-65`: the subscribers of the message's name, one after the other; an exception ends the notification.
Simplified: subscribers do not subscribe or unsubscribe (those that do are in `Model/ReceivedSubs`). -/
def notifyObj (env : DEnv) : List RProg → Message → DState → Py Unit × Message × DState
  | [], m, st => (.ok (), m, st)
  | p :: ps, m, st =>
    match p.run env m st with
    | (.error e, m, st) => (.error e, m, st)
    | (.ok _, m, st) => notifyObj env ps m st

/-- `udpdispatcher.py:168-171` with `message_handler.py:66-83` (`handle`, which catches `KeyError`): what `receive_check` returns after the notification. -/
def handleObj (env : DEnv) (subs : String → List RProg) (m : Message) (st : DState) : Py (Option Message) × DState :=
  match notifyObj env (subs m.name) m st with
  | (.ok _, m, st) => (.ok (some m), st)
  | (.error e, m, st) => if e = .keyError then (.ok (some m), st) else (.error e, st)

/-- `udpdispatcher.py:115-171` (`receive_check`), compare `receiveCheck`; `subs` are the subscribers of each name. -/
def receiveObj (env : DEnv) (subs : String → List RProg) (st : DState) (r : HostRef) (dg : Bytes) : Py (Option Message) × DState :=
  if 0 < dg.length then
    let a := (st.hosts r).addr
    let (st, c) := findCircuit st r
    let st := { st with packetsIn := st.packetsIn + 1 }
    let d := deserialize (env.deser st.trace) st.deser dg
    let st := { (st.log (.received a dg)) with deser := d.2 }
    match d.1 with
    | .error e => (.error e, st)
    | .ok none =>
      match unpackInt env.ser.rt dg .u32 1 (some .big) with
      | .error e => (.error e, st)
      | .ok pid => (.ok none, st.setCircuit a (c.collectAck pid.toNat))
    | .ok (some m) =>
      if c.trusted && !m.trusted then (.ok none, st)
      else
        let st := (st.setCircuit a (c.handlePacket m)).log (.parsed a m)
        if env.handlePackets then handleObj env subs m (st.log (.delivered m))
        else (.ok (some m), st)
  else (.ok none, st)

/-- What the client does: anything as before, or receive a datagram with subscribers that treat the message as an object. -/
inductive ROp
  | op (o : Op)
  | recv (subs : String → List RProg) (r : HostRef) (dg : Bytes)

def rstep (env : DEnv) (st : DState) : ROp → DState
  | .op o => step env st o
  | .recv subs r dg => (receiveObj env subs st r dg).2

/-- A history. -/
def runROps (env : DEnv) (st : DState) (ops : List ROp) : DState := ops.foldl (rstep env) st

end Pyogp
