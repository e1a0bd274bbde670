import Verif.Model.EventQueue
import Verif.Model.Events

/-!
# The event queue and the subscribers of its messages

`event_queue.py:164-262` with the `MessageHandler` of `message/message_handler.py` in place of an oracle for what happens to a message.
-/

namespace Pyogp

/-- What other coroutines do to the message handler while the event queue sleeps or waits for a reply (`message_handler.py:45-49,88-101`, `events.py:33-51`): a subscription is made
on what `register` returned; an exception of `unsubscribe` is theirs. -/
inductive SubOp
  | register (name : String)
  | subscribe (name : String) (s : Sub)
  | unsubscribe (name : String) (s : Sub)
  deriving DecidableEq, Repr

def SubOp.apply (st : EvState Message) : SubOp → EvState Message
  | .register n => Pyogp.register st n
  | .subscribe n s => (Pyogp.register st n).setSubs n (eventSubscribe (st.subs n) s)
  | .unsubscribe n s => st.setSubs n (eventUnsubscribe (st.subs n) s).2

/-- The client, the message handler, and (for stating properties) what came of every message handed over. -/
structure EqSubs where
  eq : EqState := {}
  ev : EvState Message := {}
  results : List (Py Unit) := []

/-- `event_queue.py:253-254`: `self.message_handler.handle(packet)` for every message until one raises; `none`: a handler does not return.  `level` is what is left of Python's
recursion limit. -/
def deliverSubs (beh : Behaviour Message) (fuel level : Nat) : List Message → EqSubs → Option EqSubs
  | [], st => some st
  | m :: l, st =>
    match handleMessage beh fuel level m.name m st.ev with
    | (none, _) => none
    | (some r, ev) =>
      let st := { eq := { st.eq with delivered := st.eq.delivered ++ [m] }, ev := ev, results := st.results ++ [r] }
      match r with
      | .ok _ => deliverSubs beh fuel level l st
      | .error _ => some st

/-- `event_queue.py:238-262` (`_parse_result`). -/
def parseResultSubs (d : TemplateDict) (beh : Behaviour Message) (fuel level : Nat) (st : EqSubs) (data : Llsd) : Option EqSubs :=
  if data = .undef then some st
  else match decodeEqResult d st.eq.lastId data with
    | .ok ms => deliverSubs beh fuel level ms st
    | .error _ => some st

/-- `event_queue.py:173-206`: one round of the loop; the other coroutines run before the reply is there. -/
def eqPollSubs (d : TemplateDict) (beh : Behaviour Message) (fuel level : Nat) (st : EqSubs) (p : List SubOp × PollOutcome) : Option EqSubs :=
  let ev := p.1.foldl SubOp.apply st.ev
  let eq := { st.eq with posts := st.eq.posts ++ [pollData st.eq.lastId] }
  let eq := match p.2 with
    | .response v => { eq with result := v }
    | .failure _ => eq
  if eq.result = .undef then parseResultSubs d beh fuel level { eq := { eq with lastId := .int (-1) }, ev := ev, results := st.results } eq.result
  else match llsdItem eq.result "id" with
    | .ok i => parseResultSubs d beh fuel level { eq := { eq with lastId := i }, ev := ev, results := st.results } eq.result
    | .error _ => some { eq := eq, ev := ev, results := st.results }

/-- `event_queue.py:171-206`: the rounds until `stopped` is seen. -/
def eqPollsSubs (d : TemplateDict) (beh : Behaviour Message) (fuel level : Nat) : List (List SubOp × PollOutcome) → EqSubs → Option EqSubs
  | [], st => some st
  | p :: ps, st =>
    match eqPollSubs d beh fuel level st p with
    | none => none
    | some st => eqPollsSubs d beh fuel level ps st

/-- `event_queue.py:164-216` (`_processRegionEventQueue`). -/
def processRegionSubs (d : TemplateDict) (beh : Behaviour Message) (fuel level : Nat) (polls : List (List SubOp × PollOutcome)) (final : PollOutcome) (st : EqSubs) :
    Option (Py Unit × EqSubs) :=
  match eqPollsSubs d beh fuel level polls { st with eq := { st.eq with running := true } } with
  | none => none
  | some st =>
    if isMinusOne st.eq.lastId then some (.ok (), { st with eq := { st.eq with running := false } })
    else
      let eq := { st.eq with posts := st.eq.posts ++ [.map [("ack", st.eq.lastId), ("done", .bool true)]] }
      match final with
      | .response _ => some (.ok (), { st with eq := { eq with running := false } })
      | .failure e => some (.error e, { st with eq := eq })

end Pyogp
