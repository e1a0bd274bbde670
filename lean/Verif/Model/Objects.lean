import Verif.Model.Manager

/-!
# Message objects

Everywhere else a message is a value.  In Python it is an object: `prepare_packet` (`circuit.py:69-86`) changes it, the dispatcher keeps it in
`unacked_packets`, the manager keeps it in its queue, and the program can change it, send it again or enqueue it twice.  Here messages are
objects in a store.  (Not modelled: subscribers that change the message they are given; a program that changes a message *while* it is being sent.)
-/

namespace Pyogp

/-- Identity of a `Message` object. -/
abbrev MsgRef := Nat

/-- An entry of `outgoing_queue` (`message_manager.py:150-158`). -/
structure QRef where
  obj : MsgRef
  reliable : Bool := false
  now : Bool := false
  deriving DecidableEq, Repr

/-- A dispatcher, the store of message objects, the objects in the `unacked_packets` of the circuits (by address and id, latest first), the queue
of the manager, and a record of how the dispatcher was used, by value. -/
structure OState where
  disp : DState
  heap : MsgRef → Message
  kept : List ((Addr × Nat) × MsgRef) := []
  queue : List QRef := []
  issued : List Op := []

/-- The object kept for an id, as it is now. -/
def OState.object (st : OState) (a : Addr) (id : Nat) (old : Message) : Message :=
  match st.kept.find? (fun p => p.1 = (a, id)) with
  | some p => st.heap p.2
  | none => old

/-- The dispatcher as it is now: the values in `unacked_packets` are the objects as the program and later sends have changed them. -/
def OState.now (st : OState) : DState :=
  { st.disp with circuits := st.disp.circuits.map (fun p =>
      (p.1, { p.2 with unacked := p.2.unacked.map (fun q => (q.1, st.object p.1 q.1 q.2)) })) }

/-- Objects whose id no longer waits for an acknowledgement are no longer kept. -/
def OState.prune (st : OState) : OState :=
  { st with kept := st.kept.filter (fun p => match st.disp.circuits.get? p.1.1 with
      | some c => c.unacked.has p.1.2
      | none => false) }

/-- `udpdispatcher.py:187-245` (`__send_message`), as far as the message object is concerned: where it is prepared (`none`: it is not, because
of an invalid host or an exception of a subscriber). -/
def preparedIn (env : DEnv) (st : DState) (m : Message) (r : HostRef) : Option DState :=
  if !(st.hosts r).isOk then none
  else if env.handleOutgoing then
    match ((env.handler (st.log (.outgoing m)).trace m).run (sendWith env (env.depth - 1)) (st.log (.outgoing m))) with
    | (.error _, _) => none
    | (.ok _, st) => some st
  else some st

/-- Send an object: the dispatcher sees its content, `prepare_packet` changes it and, if it is sent reliably, the circuit keeps it. -/
def OState.send (env : DEnv) (st : OState) (o : MsgRef) (r : HostRef) (mode : SendMode) : OState :=
  let m := st.heap o
  let st' := { st with disp := (Pyogp.send env st.now m r mode).2, issued := st.issued ++ [Op.send m r mode] }
  match preparedIn env st.now m r with
  | none => st'.prune
  | some d =>
    let p := (mode.prepare (findCircuit d r).2 m).2
    { st' with
      heap := fun x => if x = o then p else st.heap x
      kept := match mode with
        | .reliable _ => (((d.hosts r).addr, p.packetId), o) :: st.kept
        | _ => st.kept }.prune

/-- What a program does. -/
inductive OAct
  /-- change a message object in any way (its name, blocks, flags, …) -/
  | edit (o : MsgRef) (m : Message)
  /-- `send_message`, `send_reliable` -/
  | send (o : MsgRef) (r : HostRef) (mode : SendMode)
  /-- `enqueue_message` (`message_manager.py:150-158`) -/
  | enqueue (e : QRef)
  /-- the manager's loop takes the first message from the queue and sends it (`message_manager.py:182-184, 188-195`) -/
  | sendNext
  /-- any other use of the dispatcher; a message sent in this way is a new object -/
  | use (op : Op)

/-- One action; `host` is the host the manager sends to. -/
def ostep (env : DEnv) (host : HostRef) (st : OState) : OAct → OState
  | .edit o m => { st with heap := fun x => if x = o then m else st.heap x }
  | .send o r mode => st.send env o r mode
  | .enqueue e => { st with queue := if e.now then e :: st.queue else st.queue ++ [e] }
  | .sendNext =>
    match st.queue with
    | [] => st
    | e :: q => { st with queue := q }.send env e.obj host (if e.reliable then .reliable 0 else .plain)
  | .use op => { st with disp := step env st.now op, issued := st.issued ++ [op] }.prune

/-- A history. -/
def runObjects (env : DEnv) (host : HostRef) (st : OState) (as : List OAct) : OState := as.foldl (ostep env host) st

/-- A new program with these hosts and messages. -/
def OState.init (hosts : HostRef → Host) (heap : MsgRef → Message) : OState := { disp := DState.init hosts, heap := heap }

end Pyogp
