import Verif.Model.EventQueue
import Verif.Model.Logging

/-!
# The event queue with its log messages

`event_queue.py` again, with the log messages that can raise: those that name the host, the capability or an exception.
(A response is shown as a dictionary, which does not raise.)
-/

namespace Pyogp

/-- The settings; the host of the client, if it has one (`event_queue.py:85`), and whether its `ip` is `str` or `unicode`; whether the capability and the
exceptions can be shown as text (C102 tells when). -/
structure EqLog where
  settings : Settings
  ip : String → Val
  host : Option Host
  capShown : Bool
  errShown : Exc → Bool

/-- `'%s' % self.host`: does it succeed?  (`None` is shown as `None`.) -/
def EqLog.hostShown (L : EqLog) : Bool :=
  match L.host with
  | none => true
  | some h =>
    match hostRepr (LogEnv.hostVals ⟨L.settings, L.ip⟩ h).1 (LogEnv.hostVals ⟨L.settings, L.ip⟩ h).2 with
    | .ok _ => true
    | .error _ => false

/-- `event_queue.py:182-187`: the message before a POST. -/
def EqLog.postingOk (L : EqLog) : Bool := !(L.settings.ENABLE_EQ_LOGGING && L.settings.ENABLE_HOST_LOGGING) || L.hostShown

/-- `event_queue.py:192-196`: the message after a POST that raised. -/
def EqLog.failedOk (L : EqLog) (e : Exc) : Bool := (!L.settings.ENABLE_HOST_LOGGING || L.hostShown) && L.errShown e

/-- `event_queue.py:238-262` (`_parse_result`), compare `parseResult`.  The host is named whatever the settings (lines 246, 260): if that raises, so does the
handler of that exception. -/
def parseResultL (L : EqLog) (d : TemplateDict) (h : EqHandler) (st : EqState) (data : Llsd) : EqState :=
  if data = .undef then st
  else if L.hostShown then parseResult d h st data
  else st

/-- `event_queue.py:173-206`, compare `eqPoll`.  What is raised in a round ends the round (lines 205-206). -/
def eqPollL (L : EqLog) (d : TemplateDict) (h : EqHandler) (st : EqState) (o : PollOutcome) : EqState :=
  if !L.postingOk then st
  else
    let st := { st with posts := st.posts ++ [pollData st.lastId] }
    let ended := match o with
      | .response _ => false
      | .failure e => !L.failedOk e
    if ended then st
    else
      let st := match o with
        | .response v => { st with result := v }
        | .failure _ => st
      if st.result = .undef then parseResultL L d h { st with lastId := .int (-1) } st.result
      else match llsdItem st.result "id" with
        | .ok i => parseResultL L d h { st with lastId := i } st.result
        | .error _ => st

/-- `event_queue.py:164-216`, compare `processRegion`. -/
def processRegionL (L : EqLog) (d : TemplateDict) (h : EqHandler) (polls : List PollOutcome) (final : PollOutcome) (st : EqState) :
    Py Unit × EqState :=
  let st := polls.foldl (eqPollL L d h) { st with running := true }
  let stopped : Py Unit := if L.hostShown then .ok () else .error .valueError
  if isMinusOne st.lastId then (stopped, { st with running := false })
  else
    let st := { st with posts := st.posts ++ [.map [("ack", st.lastId), ("done", .bool true)]] }
    match final with
    | .response _ => (stopped, { st with running := false })
    | .failure e => (.error e, st)

/-- `event_queue.py:134-138`: the handler of the exceptions of `start`. -/
def EqLog.startFailed (L : EqLog) (e : Exc) : Py Bool :=
  if L.hostShown then
    if L.capShown && L.errShown e then .ok false else .error .valueError
  else .error .valueError

/-- `event_queue.py:104-138` (`start`), compare `eqStart`: it may raise now. -/
def eqStartL (L : EqLog) (d : TemplateDict) (h : EqHandler) (capName : Option String) (stopped : Bool) (polls : List PollOutcome) (final : PollOutcome)
    (st : EqState) : Py Bool × EqState :=
  match capName with
  | none => (L.startFailed .attributeError, st)
  | some n =>
    if n = "event_queue" then
      match processAD stopped st with
      | (.ok _, st) => (.ok true, st)
      | (.error e, st) => (L.startFailed e, st)
    else if n = "EventQueueGet" then
      if L.settings.LOG_COROUTINE_SPAWNS && !L.hostShown then (L.startFailed .valueError, st)
      else
        match processRegionL L d h (if stopped then [] else polls) final st with
        | (.ok _, st) => (.ok true, st)
        | (.error e, st) => (L.startFailed e, st)
    else (.ok false, st)

end Pyogp
