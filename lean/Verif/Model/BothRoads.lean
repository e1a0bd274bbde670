import Verif.Model.UdpSubscribers

/-!
# A message manager: the UDP dispatcher and the event queue with one message handler

`message_manager.py:98-113` gives the event queue and the dispatcher the same `MessageHandler`.  Simplified: the two coroutines are run one at a time, an operation of the dispatcher or a reply to a poll
after the other (they switch while sleeping and while waiting for the network); what a poll posts is decided by what the queue itself did before, so that it is recorded with the reply.  Both coroutines
have the same recursion limit left.
-/

namespace Pyogp

/-- The dispatcher with the message handler, the event queue client, and (for stating properties) what came of every event handed over. -/
structure BothState where
  udp : SubsState
  eq : EqState := {}
  results : List (Py Unit) := []

/-- `event_queue.py:253-254`, compare `deliverSubs`: the message handler is the dispatcher's, and its subscribers may send messages. -/
def deliverBoth (env : DEnv) (beh : SBehaviour) (fuel : Nat) : List Message → BothState → Option BothState
  | [], st => some st
  | m :: l, st =>
    match handleSubs beh (sendSubs env beh fuel env.depth) fuel env.depth m st.udp with
    | (none, _) => none
    | (some r, udp) =>
      let st := { udp := udp, eq := { st.eq with delivered := st.eq.delivered ++ [m] }, results := st.results ++ [r] }
      match r with
      | .ok _ => deliverBoth env beh fuel l st
      | .error _ => some st

/-- `event_queue.py:238-262` (`_parse_result`), compare `parseResultSubs`. -/
def parseResultBoth (env : DEnv) (d : TemplateDict) (beh : SBehaviour) (fuel : Nat) (st : BothState) (data : Llsd) : Option BothState :=
  if data = .undef then some st
  else match decodeEqResult d st.eq.lastId data with
    | .ok ms => deliverBoth env beh fuel ms st
    | .error _ => some st

/-- `event_queue.py:173-206`, compare `eqPollSubs`: one round of the loop. -/
def pollBoth (env : DEnv) (d : TemplateDict) (beh : SBehaviour) (fuel : Nat) (st : BothState) (o : PollOutcome) : Option BothState :=
  let eq := { st.eq with posts := st.eq.posts ++ [pollData st.eq.lastId] }
  let eq := match o with
    | .response v => { eq with result := v }
    | .failure _ => eq
  if eq.result = .undef then parseResultBoth env d beh fuel { st with eq := { eq with lastId := .int (-1) } } eq.result
  else match llsdItem eq.result "id" with
    | .ok i => parseResultBoth env d beh fuel { st with eq := { eq with lastId := i } } eq.result
    | .error _ => some { st with eq := eq }

/-- What happens to a manager: an operation of the dispatcher, a change of subscriptions, or a reply to a poll of the event queue. -/
inductive BOp
  | udp (o : SOp)
  | poll (o : PollOutcome)

/-- One of these, with what it returns (`nothing` for a poll: its exceptions are caught, `event_queue.py:205-206,256-262`); `none`: a subscriber does not return. -/
def stepBoth (env : DEnv) (d : TemplateDict) (beh : SBehaviour) (fuel : Nat) (st : BothState) : BOp → Option (OpResult × BothState)
  | .udp o =>
    match stepSubs env beh fuel st.udp o with
    | (none, _) => none
    | (some r, udp) => some (r, { st with udp := udp })
  | .poll o => (pollBoth env d beh fuel st o).map (fun st => (.nothing, st))

/-- A history. -/
def runBoth (env : DEnv) (d : TemplateDict) (beh : SBehaviour) (fuel : Nat) : BothState → List BOp → Option (List OpResult × BothState)
  | st, [] => some ([], st)
  | st, o :: ops =>
    match stepBoth env d beh fuel st o with
    | none => none
    | some (r, st) => (runBoth env d beh fuel st ops).map (fun x => (r :: x.1, x.2))

end Pyogp
