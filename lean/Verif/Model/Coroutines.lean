import Verif.Model.Manager
import Verif.Model.EventQueue

/-!
# The coroutines of a message manager

Models how the loops of `message_manager.py` and `event_queue.py` run together with the rest of the program.  eventlet switches between
coroutines only at `api.sleep` and at socket calls (`event_queue.py:26`), so a coroutine is suspended at one of a few places and an action runs
one coroutine from there to the next place; any other code of the program runs between two actions.  Which action comes next is arbitrary.

More places are allowed here than eventlet has: between receiving, acknowledging and every single message of the outgoing queue (sending a
datagram is a socket call as well).  Simplified: no switch inside `receive_check`, `process_acks` and the sending of one message.
-/

namespace Pyogp

/-- Where a coroutine running `_udp_dispatcher` (`message_manager.py:167-186`) is suspended. -/
inductive UdpAt
  /-- spawned (line 125), has not run yet -/
  | spawned
  /-- in `api.sleep(0)`, line 173 -/
  | sleeping
  /-- waiting for a datagram, line 174 -/
  | receiving
  /-- before line 179 -/
  | acking
  /-- before the test of line 182 -/
  | draining
  /-- the function returned -/
  | returned
  /-- the function was left by an exception -/
  | raised (e : Exc)
  deriving DecidableEq, Repr

/-- Where a coroutine running `EventQueueClient.start` (`event_queue.py:104-138`) is suspended. -/
inductive EqAt
  /-- spawned (`message_manager.py:129`), has not run yet -/
  | spawned
  /-- in `api.sleep`, line 176 -/
  | sleeping
  /-- waiting for the response to a poll, line 190 -/
  | posting
  /-- waiting for the response to the last POST, line 212 -/
  | closing
  /-- `start` returned `True` or `False` -/
  | ended (ok : Bool)
  deriving DecidableEq, Repr

/-- An event queue client shared by its coroutines: its attributes and `self.stopped` (`event_queue.py:90-91`). -/
structure EqClient where
  st : EqState := {}
  stopped : Bool := false

/-- A manager with its coroutines.  `eq` is `self.event_queue` (`message_manager.py:95-102`), `running` is `_is_running`; `reads` counts the
datagrams (or failures) the loops got from the socket, `polls` the polls the event queue made. -/
structure World where
  m : MState
  running : Bool := false
  loops : List UdpAt := []
  reads : Nat := 0
  eq : Option EqClient := none
  pollers : List EqAt := []
  polls : Nat := 0

/-- Configuration and environment: that of the manager (whose `meanwhile` is not used here), `ENABLE_REGION_EVENT_QUEUE`, and what the event
queue uses. -/
structure CEnv where
  m : MEnv
  eqEnabled : Bool := true
  dict : TemplateDict
  handler : EqHandler := fun _ => .ok ()

/-- What happens next. -/
inductive Act
  /-- some code calls `enqueue_message` -/
  | enqueue (e : QEntry)
  /-- some code calls `start_monitors` -/
  | start
  /-- some code calls `stop_monitors` -/
  | stop
  /-- some code calls `stop` of the event queue itself -/
  | stopQueue
  /-- some code uses the dispatcher directly -/
  | disp (o : Op)
  /-- the `i`-th UDP loop runs until its next switch; `input` is what the socket gives it if it waits for that, `order` the iteration order
  of the circuits -/
  | udp (i : Nat) (input : Option Incoming) (order : List Addr)
  /-- the `i`-th event queue coroutine runs until its next switch; `o` is the response if it waits for one -/
  | poller (i : Nat) (o : PollOutcome)

/-- `message_manager.py:172`: the test of the outer loop. -/
def World.loopHead (w : World) : UdpAt := if w.running then .sleeping else .returned

/-- A UDP loop runs from one switch to the next (`message_manager.py:172-184`): its new place and the new world. -/
def udpRun (env : CEnv) (w : World) (input : Option Incoming) (order : List Addr) : UdpAt → UdpAt × World
  | .spawned => (w.loopHead, w)
  | .sleeping => (.receiving, w)
  | .receiving =>
    match receiveRound env.m w.m.disp input with
    | (.error x, d) => (.raised x, { w with m := w.m.setDisp d, reads := w.reads + 1 })
    | (.ok _, d) => (.acking, { w with m := w.m.setDisp d, reads := w.reads + 1 })
  | .acking =>
    match ackRound env.m w.m.disp order with
    | (.error x, d) => (.raised x, { w with m := w.m.setDisp d })
    | (.ok _, d) => (.draining, { w with m := w.m.setDisp d })
  | .draining =>
    match w.m.queue with
    | [] => (w.loopHead, w)
    | e :: q =>
      match sendUdpMessage env.m (w.m.popped e q).disp e with
      | (.error x, d) => (.raised x, { w with m := (w.m.popped e q).setDisp d })
      | (.ok _, d) => (.draining, { w with m := (w.m.popped e q).setDisp d })
  | .returned => (.returned, w)
  | .raised x => (.raised x, w)

/-- `event_queue.py:178-190`: a poll is posted. -/
def eqPost (st : EqState) : EqState := { st with posts := st.posts ++ [pollData st.lastId] }

/-- `event_queue.py:190-203`: its response (or failure) is processed; `eqPoll` without a switch in between is `eqPost` then `eqAnswer`. -/
def eqAnswer (d : TemplateDict) (h : EqHandler) (st : EqState) (o : PollOutcome) : EqState :=
  let st := match o with
    | .response v => { st with result := v }
    | .failure _ => st
  if st.result = .undef then parseResult d h { st with lastId := .int (-1) } st.result
  else match llsdItem st.result "id" with
    | .ok i => parseResult d h { st with lastId := i } st.result
    | .error _ => st

/-- `event_queue.py:173,208-214`: the test of the loop and, if it is left, the last POST. -/
def eqHead (c : EqClient) : EqAt × EqClient :=
  if !c.stopped then (.sleeping, c)
  else if isMinusOne c.st.lastId then (.ended true, { c with st := { c.st with running := false } })
  else (.closing, { c with st := { c.st with posts := c.st.posts ++ [.map [("ack", c.st.lastId), ("done", .bool true)]] } })

/-- An event queue coroutine runs from one switch to the next (`event_queue.py:104-138,164-216`).  The capability is named `EventQueueGet`
(other names: `eqStart`). -/
def eqRun (env : CEnv) (c : EqClient) (o : PollOutcome) : EqAt → EqAt × EqClient
  | .spawned => eqHead { c with st := { c.st with running := true } }
  | .sleeping => (.posting, { c with st := eqPost c.st })
  | .posting => eqHead { c with st := eqAnswer env.dict env.handler c.st o }
  | .closing =>
    match o with
    | .response _ => (.ended true, { c with st := { c.st with running := false } })
    | .failure _ => (.ended false, c)
  | .ended b => (.ended b, c)

/-- `message_manager.py:118-132` (`start_monitors`). -/
def World.start (env : CEnv) (w : World) : World :=
  { w with running := true, loops := w.loops ++ [.spawned],
           pollers := if w.eq.isSome && env.eqEnabled then w.pollers ++ [.spawned] else w.pollers }

/-- `message_manager.py:134-144` (`stop_monitors`) and `event_queue.py:140-162` (`stop`; the coroutine it spawns only writes to the log). -/
def World.stop (w : World) : World :=
  let r := (stopMonitors (w.eq.map (·.st.running))).2
  { w with running := r.1, eq := w.eq.map (fun c => if r.2 then { c with stopped := true } else c) }

/-- One action (`stopQueue`: `event_queue.py:140-145`). -/
def act (env : CEnv) (w : World) : Act → World
  | .enqueue e => { w with m := w.m.enqueueAll [e] }
  | .start => w.start env
  | .stop => w.stop
  | .stopQueue => { w with eq := w.eq.map (fun c => { c with stopped := true }) }
  | .disp o => { w with m := w.m.setDisp (step env.m.disp w.m.disp o) }
  | .udp i input order =>
    match w.loops[i]? with
    | none => w
    | some pc => { (udpRun env w input order pc).2 with loops := w.loops.set i (udpRun env w input order pc).1 }
  | .poller i o =>
    match w.pollers[i]?, w.eq with
    | some pc, some c =>
      { w with eq := some (eqRun env c o pc).2, pollers := w.pollers.set i (eqRun env c o pc).1,
               polls := if pc = .sleeping then w.polls + 1 else w.polls }
    | _, _ => w

/-- A history: actions in any order. -/
def runActs (env : CEnv) (w : World) (as : List Act) : World := as.foldl (act env) w

/-- `message_manager.py:41-116`: a new manager, with or without an event queue; its monitors have not been started. -/
def World.init (hosts : HostRef → Host) (hasEq : Bool) : World :=
  { m := { disp := DState.init hosts }, eq := if hasEq then some {} else none }

end Pyogp
