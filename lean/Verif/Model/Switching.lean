import Verif.Model.Dispatcher

/-!
# Coroutine switches inside sending

`udpdispatcher.py` again, but a coroutine can be suspended in the middle of sending a packet, at two places: while the subscribers of outgoing packets
run (line 200: they may sleep, and they may change the packet), and in `sendto` (line 234, `net.py:42`: `event_queue.py:28` makes all sockets of the
process switch).  Meanwhile other coroutines do anything: send, receive, acknowledge.  A packet being sent is a *task*; the rest of a suspended
`process_acks` is part of the task it waits for.

Subscribers are not represented as programs here: what they do, and when, is among the acts of the other coroutines.
-/

namespace Pyogp

/-- A circuit that a `process_acks` in progress has in its hands (`udpdispatcher.py:287`: line 287 makes a list of the circuits, so it keeps those that are
removed from the dispatcher meanwhile). -/
inductive CircuitRef
  /-- the circuit of this address -/
  | inMap (a : Addr)
  /-- a circuit removed meanwhile -/
  | removed (i : Nat)
  deriving DecidableEq, Repr

/-- Where a `process_acks` stands that waits for a packet to be sent (`udpdispatcher.py:283-315`).  Line 315 gives the circuit another list, so a loop
that walks through `circuit.acks` may walk through a list that no longer is that of the circuit. -/
structure AckPos where
  /-- the circuit whose ids are being acknowledged -/
  circuit : CircuitRef
  /-- the list walked through, if it is not that of the circuit any more -/
  own : Option (List Nat)
  /-- how many ids of it have been taken -/
  taken : Nat
  /-- whether the packet is the one sent after the loop (line 313) -/
  final : Bool
  /-- the circuits still to be done -/
  rest : List CircuitRef
  deriving DecidableEq, Repr

/-- Where a coroutine is suspended: in the subscribers of outgoing packets, or in `sendto` with a serialized packet. -/
inductive Stage
  | subscribers (m : Message)
  | socket (a : Addr) (m : Message) (dg : Bytes)
  deriving DecidableEq, Repr

/-- A packet being sent, and what its coroutine does in the dispatcher afterwards. -/
structure Sending where
  host : HostRef
  mode : SendMode
  stage : Stage
  after : Option AckPos
  deriving DecidableEq, Repr

structure SState where
  disp : DState
  tasks : List Sending
  /-- circuits that were removed while a `process_acks` was in progress -/
  removed : List Circuit

/-- The circuit. -/
def SState.lookup (s : SState) : CircuitRef → Option Circuit
  | .inMap a => s.disp.circuits.get? a
  | .removed i => s.removed[i]?

/-- `udpdispatcher.py:199-200`: the packet goes to the subscribers (if they are to see it). -/
def beginSend (env : DEnv) (s : SState) (m : Message) (h : HostRef) (mode : SendMode) (after : Option AckPos) : SState :=
  { s with
    disp := if env.handleOutgoing then s.disp.log (.outgoing m) else s.disp,
    tasks := s.tasks ++ [⟨h, mode, .subscribers m, after⟩] }

/-- `udpdispatcher.py:294-309`: ids are taken until the packet has 251 or there are no more: how many, how many the packet has, and the packet. -/
def collectAcks : List Nat → Nat → Message → Nat × Nat × Message
  | [], n, msg => (0, n, msg)
  | pid :: ids, n, msg =>
    let msg := addAckBlock (if n = 0 then Message.new "PacketAck" [] else msg) pid
    if 250 < n + 1 then (1, n + 1, msg)
    else
      let r := collectAcks ids (n + 1) msg
      (r.1 + 1, r.2)

/-- A loop over this list keeps walking through it. -/
def Sending.detach (r : CircuitRef) (l : List Nat) (t : Sending) : Sending :=
  match t.after with
  | some p => if p.circuit = r ∧ p.own = none then { t with after := some { p with own := some l } } else t
  | none => t

/-- `udpdispatcher.py:315`: `circuit.acks = []`. -/
def clearAcks (s : SState) (r : CircuitRef) : SState :=
  match s.lookup r with
  | none => s
  | some c =>
    let s : SState := { s with tasks := s.tasks.map (Sending.detach r c.acks) }
    match r with
    | .inMap a => { s with disp := s.disp.setCircuit a { c with acks := [] } }
    | .removed i => { s with removed := s.removed.set i { c with acks := [] } }

/-- `udpdispatcher.py:294-313`: walk through the ids until a packet has to be sent; `none` if there is nothing (more) to send.  When the host is not
usable every send returns at once (line 190), so that nothing happens. -/
def ackUntilSend (env : DEnv) (s : SState) (ref : CircuitRef) (own : Option (List Nat)) (taken : Nat) (rest : List CircuitRef) :
    Option SState :=
  match s.lookup ref with
  | none => none
  | some c =>
    let r := collectAcks ((own.getD c.acks).drop taken) 0 (Message.new "PacketAck" [])
    if r.2.1 = 0 ∨ (s.disp.hosts c.host).isOk = false then none
    else some (beginSend env s r.2.2 c.host .plain (some ⟨ref, own, taken + r.1, decide (r.2.1 ≤ 250), rest⟩))

/-- `udpdispatcher.py:287-315`: the circuits one after the other, until a packet has to be sent. -/
def ackFrom (env : DEnv) : List CircuitRef → SState → SState
  | [], s => s
  | r :: rest, s =>
    match ackUntilSend env s r none 0 rest with
    | some s' => s'
    | none => ackFrom env rest (clearAcks s r)

/-- `udpdispatcher.py:308-315`: a packet of `process_acks` was sent (or failed to be). -/
def ackResume (env : DEnv) (p : AckPos) (s : SState) : SState :=
  if p.final then ackFrom env p.rest (clearAcks s p.circuit)
  else
    match ackUntilSend env s p.circuit p.own p.taken p.rest with
    | some s' => s'
    | none => ackFrom env p.rest (clearAcks s p.circuit)

/-- The coroutine of the `i`-th packet leaves `__send_message`, normally or with an exception (which ends `process_acks`, too). -/
def leave (env : DEnv) (s : SState) (i : Nat) (after : Option AckPos) (r : Py (Option Bytes)) : SState :=
  let s : SState := { s with tasks := s.tasks.eraseIdx i }
  match r, after with
  | .ok _, some p => ackResume env p s
  | _, _ => s

/-- `udpdispatcher.py:202-212`: the packet gets its id and flags. -/
def prepareFor (st : DState) (m : Message) (r : HostRef) (mode : SendMode) : Message × DState :=
  let a := (st.hosts r).addr
  let (st, c) := findCircuit st r
  let (c, m) := mode.prepare c m
  let st := (st.setCircuit a c).log (.prepared a m)
  (m, match mode with
    | .reliable _ => if c.unackCount ≤ 0 then { st with unackedCircuits := st.unackedCircuits.set r a } else st
    | _ => st)

/-- What can happen next. -/
inductive SAct
  /-- some coroutine calls `send_message` or `send_reliable` -/
  | start (m : Message) (h : HostRef) (mode : SendMode)
  /-- a subscriber changes the packet it is given -/
  | edit (i : Nat) (m : Message)
  /-- the subscribers have finished with a packet -/
  | go (i : Nat)
  /-- a subscriber raises an exception -/
  | throw (i : Nat)
  /-- the socket accepts a packet -/
  | accept (i : Nat)
  /-- the socket raises an exception -/
  | refuse (i : Nat)
  /-- some coroutine calls `receive_check` (the subscribers act for themselves) -/
  | recv (h : HostRef) (dg : Bytes)
  /-- some coroutine calls `process_acks`; the circuits come in this order -/
  | acks (order : List Addr)
  | setHost (h : HostRef) (v : Host)
  | removeCircuit (h : HostRef)
  | setTrusted (a : Addr) (b : Bool)

/-- Some `process_acks` is in progress. -/
def SState.acking (s : SState) : Bool := s.tasks.any (fun t => t.after.isSome)

/-- The circuit of `a` becomes the `n`-th removed one. -/
def CircuitRef.retarget (a : Addr) (n : Nat) (r : CircuitRef) : CircuitRef := if r = .inMap a then .removed n else r

/-- A `process_acks` keeps the circuits it has, also if they are removed. -/
def Sending.retarget (a : Addr) (n : Nat) (t : Sending) : Sending :=
  { t with after := t.after.map (fun p => { p with circuit := p.circuit.retarget a n, rest := p.rest.map (CircuitRef.retarget a n) }) }

/-- `circuit.py:148-150` (`remove_circuit_data`): nobody but a `process_acks` in progress keeps the circuit. -/
def dropCircuit (env : DEnv) (s : SState) (h : HostRef) : SState :=
  match (if s.acking then s.disp.circuits.get? (s.disp.hosts h).addr else none) with
  | none => { s with disp := step env s.disp (.removeCircuit h) }
  | some c => { disp := step env s.disp (.removeCircuit h), tasks := s.tasks.map (Sending.retarget (s.disp.hosts h).addr s.removed.length),
                removed := s.removed ++ [c] }

/-- One act.  An act on a packet that does not exist or is elsewhere is not possible, and changes nothing. -/
def sstep (env : DEnv) (s : SState) : SAct → SState
  | .start m h mode => if (s.disp.hosts h).isOk then beginSend env s m h mode none else s
  | .edit i m =>
    match s.tasks[i]? with
    | some ⟨h, mode, .subscribers _, after⟩ => { s with tasks := s.tasks.set i ⟨h, mode, .subscribers m, after⟩ }
    | _ => s
  | .go i =>
    match s.tasks[i]? with
    | some ⟨h, mode, .subscribers m, after⟩ =>
      let p := prepareFor s.disp m h mode
      match serialize env.ser p.1 with
      | .ok (some dg) => { s with disp := p.2, tasks := s.tasks.set i ⟨h, mode, .socket (s.disp.hosts h).addr p.1 dg, after⟩ }
      | _ => leave env { s with disp := p.2 } i after (sendFailed p.1)
    | _ => s
  | .throw i =>
    match s.tasks[i]? with
    | some ⟨_, _, .subscribers _, _⟩ => { s with tasks := s.tasks.eraseIdx i }
    | _ => s
  | .accept i =>
    match s.tasks[i]? with
    | some ⟨_, _, .socket a _ dg, after⟩ =>
      leave env { s with disp := { (s.disp.log (.sent a dg)) with packetsOut := s.disp.packetsOut + 1 } } i after (.ok (some dg))
    | _ => s
  | .refuse i =>
    match s.tasks[i]? with
    | some ⟨_, _, .socket _ m _, after⟩ => leave env s i after (sendFailed m)
    | _ => s
  | .recv h dg => { s with disp := (receiveCheck { env with handler := fun _ _ => .done } s.disp h dg).2 }
  | .acks order =>
    match resendAll s.disp with
    | .error _ => s
    | .ok _ => ackFrom env (order.map .inMap) s
  | .setHost h v => { s with disp := step env s.disp (.setHost h v) }
  | .removeCircuit h => dropCircuit env s h
  | .setTrusted a b => { s with disp := step env s.disp (.setTrusted a b) }

/-- A history. -/
def runSwitching (env : DEnv) (s : SState) (acts : List SAct) : SState := acts.foldl (sstep env) s

/-- A new dispatcher. -/
def SState.init (hosts : HostRef → Host) : SState := ⟨DState.init hosts, [], []⟩

end Pyogp
