import Verif.Model.Dispatcher

/-!
# The message manager

Models `message_manager.py`.  One manager uses one dispatcher and one queue of outgoing messages.

Coroutines switch only inside `api.sleep(0)` and socket calls; together with the subscribers of messages they can enqueue
messages while the loop runs.  What they enqueue at each such point is a function of everything that happened so far.
-/

namespace Pyogp

/-- An entry `(message, reliable)` of `outgoing_queue` (`message_manager.py:150-158`).  `now` is the argument it was enqueued with; it is
kept for stating properties and never read by the model after `enqueue`. -/
structure QEntry where
  msg : Message
  reliable : Bool := false
  now : Bool := false
  deriving DecidableEq, Repr

/-- `message_manager.py:150-158` (`enqueue_message`). -/
def enqueue (q : List QEntry) (e : QEntry) : List QEntry := if e.now then e :: q else q ++ [e]

/-- The attributes of a manager that the loop uses; `calls` records the arguments of `send_udp_message`, `enqueued` those of
`enqueue_message`. -/
structure MState where
  disp : DState
  queue : List QEntry := []
  calls : List QEntry := []
  enqueued : List QEntry := []

/-- `enqueue_message` was called with these, in this order. -/
def MState.enqueueAll (st : MState) (es : List QEntry) : MState :=
  { st with queue := es.foldl enqueue st.queue, enqueued := st.enqueued ++ es }

/-- The first entry was taken from the queue. -/
def MState.popped (st : MState) (e : QEntry) (q : List QEntry) : MState := { st with queue := q, calls := st.calls ++ [e] }

def MState.setDisp (st : MState) (d : DState) : MState := { st with disp := d }

/-- Configuration and environment: the dispatcher's, the host object messages go to (`message_manager.py:50`), the sender object of the UDP
client (`net.py:30-34`), and what is enqueued by others meanwhile. -/
structure MEnv where
  disp : DEnv
  host : HostRef
  sender : HostRef
  meanwhile : MState → List QEntry := fun _ => []

/-- `message_manager.py:188-195` (`send_udp_message`). -/
def sendUdpMessage (env : MEnv) (d : DState) (e : QEntry) : Py (Option Bytes) × DState :=
  if e.reliable then send env.disp d e.msg env.host (.reliable 0) else send env.disp d e.msg env.host .plain

/-- `message_manager.py:182-184`: the inner loop.  The fuel bounds its rounds; `none` when it is used up. -/
def drain (env : MEnv) : Nat → MState → Option (Py Unit) × MState
  | 0, st => (none, st)
  | fuel + 1, st =>
    match st.queue with
    | [] => (some (.ok ()), st)
    | e :: q =>
      let st := st.popped e q
      match sendUdpMessage env st.disp e with
      | (.error x, d) => (some (.error x), st.setDisp d)
      | (.ok _, d) =>
        let st := st.setDisp d
        drain env fuel (st.enqueueAll (env.meanwhile st))

/-- What the socket returns in one round: nothing (an exception, `net.py:44-51`) or a datagram and where it comes from. -/
structure Incoming where
  ip : String
  port : Nat
  dg : Bytes
  deriving Repr

/-- `net.py:45-48`: the buffer `recvfrom` is given; the rest of a longer datagram is discarded by the system. -/
def recvBuffer : Nat := 10000

/-- `message_manager.py:174-177` and `net.py:44-54`: receive. -/
def receiveRound (env : MEnv) (d : DState) : Option Incoming → Py (Option Message) × DState
  | none => receiveCheck env.disp d env.sender []
  | some i => receiveCheck env.disp (netReceive d env.sender i.ip i.port) env.sender (i.dg.take recvBuffer)

/-- `message_manager.py:179-180`: acknowledge. -/
def ackRound (env : MEnv) (d : DState) (order : List Addr) : Py Unit × DState :=
  if hasUnacked d then processAcks env.disp d order else (.ok (), d)

/-- `message_manager.py:173-184`: one round of the loop.  `order` is the iteration order of the dictionary of circuits. -/
def udpRound (env : MEnv) (fuel : Nat) (st : MState) (input : Option Incoming) (order : DState → List Addr) : Option (Py Unit) × MState :=
  let st := st.enqueueAll (env.meanwhile st)
  match receiveRound env st.disp input with
  | (.error x, d) => (some (.error x), st.setDisp d)
  | (.ok _, d) =>
    let st := st.setDisp d
    let st := st.enqueueAll (env.meanwhile st)
    match ackRound env st.disp (order st.disp) with
    | (.error x, d) => (some (.error x), st.setDisp d)
    | (.ok _, d) =>
      let st := st.setDisp d
      drain env fuel (st.enqueueAll (env.meanwhile st))

/-- `message_manager.py:167-186` (`_udp_dispatcher`): the rounds until `stop_monitors` is called; an exception ends the coroutine. -/
def udpLoop (env : MEnv) (fuel : Nat) (order : DState → List Addr) : List (Option Incoming) → MState → Option (Py Unit) × MState
  | [], st => (some (.ok ()), st)
  | i :: is, st =>
    match udpRound env fuel st i order with
    | (some (.ok _), st) => udpLoop env fuel order is st
    | r => r

/-- `message_manager.py:134-144` (`stop_monitors`): the new value of `_is_running`, whether the event queue gets a `stop`.  `eq` is
`event_queue._running`, `none` if `event_queue` is `None`. -/
def stopMonitors (eq : Option Bool) : Py Unit × (Bool × Bool) :=
  match eq with
  | none => (.error .attributeError, (false, false))
  | some running => (.ok (), (false, running))

/-- A constructor argument that should be a file: not given (or false), a `file`, something else. -/
inductive FileArg | absent | file | other
  deriving DecidableEq, Repr

/-- `message_manager.py:41-116` (`__init__`) up to the dispatcher, whose own constructor repeats the checks of handler and template
(`udpdispatcher.py:74-98`): the exception it raises, if any.  `log` is not defined (lines 73, 87); without a handler and with
`HANDLE_PACKETS` off, `self.message_handler` does not exist (lines 100, 111). -/
def managerInit (handlerGiven handlePackets : Bool) (template xml : FileArg) : Py Unit := do
  if template = .other then .error .nameError
  if xml = .other then .error .nameError
  if !handlerGiven && !handlePackets then .error .attributeError

end Pyogp
