import Verif.Model.Message

/-!
# The event queue client

Models `event_queue.py`.  HTTP is an oracle: every `cap.POST` gets a response (a parsed LLSD value) or raises.
-/

namespace Pyogp

/-- `x[k]` for a string `k`: `KeyError` on a map without it, `TypeError` on anything that is not a map. -/
def llsdItem : Llsd → String → Py Llsd
  | .map m, k => Dict.get m k
  | _, _ => .error .typeError

/-- `for i in x`: the items of an array; keys of a map and characters of a string are strings.
Simplified: a character of a string or binary is represented by an empty string (only its type is ever used). -/
def llsdIter : Llsd → Py (List Llsd)
  | .arr l => .ok l
  | .map m => .ok (m.map (fun p => .str p.1))
  | .str s => .ok (s.toList.map (fun _ => .str ""))
  | .binary b => .ok (b.map (fun _ => .str ""))
  | _ => .error .typeError

/-- `for k in x: ... x[k] ...`: the entries of a map.  On an empty array or string the loop does nothing, on other values it raises
`TypeError`.  Simplified: an array of integers indexing itself is also taken to raise. -/
def llsdPairs : Llsd → Py (List (String × Llsd))
  | .map m => .ok m
  | .arr [] => .ok []
  | .str s => if s = "" then .ok [] else .error .typeError
  | .binary b => if b = [] then .ok [] else .error .typeError
  | _ => .error .typeError

/-- `event_queue.py:305-311,318-324`: a block with the entries of a map as variables.  The variable type `-1` these variables get is not
represented. -/
def eqBlock (name : String) (vars : List (String × Llsd)) : BlockData :=
  Block.mk' name (vars.map (fun p => (p.1, .llsd p.2)))

/-- `event_queue.py:304-311`: the instances of one block of the body. -/
def eqInstances (name : String) : List Llsd → Message → Py Message
  | [], m => .ok m
  | i :: l, m => do
    let vars ← llsdPairs i
    eqInstances name l (m.addBlock (eqBlock name vars))

/-- `event_queue.py:302-311`: the body of a message that is in the template. -/
def eqBlocks : List (String × Llsd) → Message → Py Message
  | [], m => .ok m
  | (name, insts) :: l, m => do
    let is ← llsdIter insts
    let m ← eqInstances name is m
    eqBlocks l m

/-- `event_queue.py:286-326`: one event.  Simplified: an event whose name is not a string raises `TypeError` (Python accepts other
hashable values). -/
def decodeEvent (d : TemplateDict) (lastId : Llsd) (ev : Llsd) : Py Message := do
  match ← llsdItem ev "message" with
  | .str name =>
    let m := { Message.new name [] with eventQueueId := lastId }
    let body ← llsdItem ev "body"
    match d.getTemplate name with
    | some _ => do eqBlocks (← llsdPairs body) m
    | none => do .ok (m.addBlock (eqBlock "Message_Data" (← llsdPairs body)))
  | _ => .error .typeError

/-- `event_queue.py:286-326`: a list of events. -/
def decodeEvents (d : TemplateDict) (lastId : Llsd) : List Llsd → Py (List Message)
  | [] => .ok []
  | e :: l => do
    let m ← decodeEvent d lastId e
    let ms ← decodeEvents d lastId l
    .ok (m :: ms)

/-- `event_queue.py:277-286`: every entry of the response except `id`. -/
def decodeEntries (d : TemplateDict) (lastId : Llsd) : List (String × Llsd) → Py (List Message)
  | [] => .ok []
  | (k, v) :: l => do
    if k = "id" then decodeEntries d lastId l
    else
      let evs ← llsdIter v
      let ms ← decodeEvents d lastId evs
      let rest ← decodeEntries d lastId l
      .ok (ms ++ rest)

/-- `event_queue.py:264-328` (`_decode_eq_result`) for data that is not `None`. -/
def decodeEqResult (d : TemplateDict) (lastId : Llsd) : Llsd → Py (List Message)
  | .map m => if Dict.has m "events" then decodeEntries d lastId m else .ok []
  | _ => .error .attributeError

/-- What a `cap.POST` does: return a parsed body (`undef` is Python's `None`) or raise. -/
inductive PollOutcome
  | response (v : Llsd)
  | failure (e : Exc)
  deriving DecidableEq, Repr

/-- `event_queue.py:84-102`: the client's attributes; `posts` and `delivered` record what was posted and what was handed to the
message handler. -/
structure EqState where
  running : Bool := false
  lastId : Llsd := .int (-1)
  result : Llsd := .undef
  posts : List Llsd := []
  delivered : List Message := []
  deriving DecidableEq, Repr

/-- What the message handler does with a message (the last of the list of all it was given): return or raise. -/
abbrev EqHandler := List Message → Py Unit

/-- `x == -1` (`event_queue.py:179,208`): an integer or a real. -/
def isMinusOne : Llsd → Bool
  | .int i => i = -1
  | .real b => b = 0xBFF0000000000000#64
  | _ => false

/-- `event_queue.py:253-254`: hand the messages over one by one until a handler raises. -/
def deliverAll (h : EqHandler) : List Message → List Message → List Message
  | [], done => done
  | m :: l, done =>
    match h (done ++ [m]) with
    | .ok _ => deliverAll h l (done ++ [m])
    | .error _ => done ++ [m]

/-- `event_queue.py:238-262` (`_parse_result`): every exception is swallowed. -/
def parseResult (d : TemplateDict) (h : EqHandler) (st : EqState) (data : Llsd) : EqState :=
  if data = .undef then st
  else match decodeEqResult d st.lastId data with
    | .ok ms => { st with delivered := deliverAll h ms st.delivered }
    | .error _ => st

/-- `event_queue.py:178-180`: what is posted. -/
def pollData (lastId : Llsd) : Llsd := if isMinusOne lastId then .map [] else .map [("ack", lastId)]

/-- `event_queue.py:173-206`: one round of the loop.  If the POST raises, `self.result` keeps its previous value (lines 189-196). -/
def eqPoll (d : TemplateDict) (h : EqHandler) (st : EqState) (o : PollOutcome) : EqState :=
  let st := { st with posts := st.posts ++ [pollData st.lastId] }
  let st := match o with
    | .response v => { st with result := v }
    | .failure _ => st
  if st.result = .undef then parseResult d h { st with lastId := .int (-1) } st.result
  else match llsdItem st.result "id" with
    | .ok i => parseResult d h { st with lastId := i } st.result
    | .error _ => st

/-- `event_queue.py:164-216` (`_processRegionEventQueue`): the polls until `stopped` is seen, then the final POST, whose exception is not
caught. -/
def processRegion (d : TemplateDict) (h : EqHandler) (polls : List PollOutcome) (final : PollOutcome) (st : EqState) :
    Py Unit × EqState :=
  let st := polls.foldl (eqPoll d h) { st with running := true }
  if isMinusOne st.lastId then (.ok (), { st with running := false })
  else
    let st := { st with posts := st.posts ++ [.map [("ack", st.lastId), ("done", .bool true)]] }
    match final with
    | .response _ => (.ok (), { st with running := false })
    | .failure e => (.error e, st)

/-- `event_queue.py:218-236` (`_processADEventQueue`): `self.settings` has no `agentdomain_event_queue_interval`, so the first round raises. -/
def processAD (stopped : Bool) (st : EqState) : Py Unit × EqState :=
  if stopped then (.ok (), { st with running := false }) else (.error .attributeError, { st with running := true })

/-- `event_queue.py:104-138` (`start`): `capName` is the name of the capability (`none`: no capability), `stopped` tells whether `stop` was
called before; the polls are those made before `stop` is called. -/
def eqStart (d : TemplateDict) (h : EqHandler) (capName : Option String) (stopped : Bool) (polls : List PollOutcome) (final : PollOutcome)
    (st : EqState) : Bool × EqState :=
  match capName with
  | none => (false, st)
  | some n =>
    if n = "event_queue" then
      match processAD stopped st with
      | (.ok _, st) => (true, st)
      | (.error _, st) => (false, st)
    else if n = "EventQueueGet" then
      match processRegion d h (if stopped then [] else polls) final st with
      | (.ok _, st) => (true, st)
      | (.error _, st) => (false, st)
    else (false, st)

end Pyogp
