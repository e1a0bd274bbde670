import Verif.Spec.EventQueue

/-!
# Specification: the simulator's side of the event queue

What `event_queue.py:208-212` expects of it: a response is sent again until it is acknowledged.
-/

namespace Pyogp.Spec

/-- A simulator: the events that have happened and are in no response yet, the responses it has made (id and events, oldest first), and whether the last one is not
acknowledged yet. -/
structure EqServer where
  waiting : List Event := []
  sent : List (Llsd × List Event) := []
  unacked : Bool := false

/-- An id that `-1`, which means "none" to the client, is not. -/
def SaneId (i : Llsd) : Prop := i ≠ .int (-1) ∧ i ≠ .real 0xBFF0000000000000#64

/-- A simulator a client may come to: it has used no `-1`, and what is not acknowledged exists. -/
def EqServer.Sane (sv : EqServer) : Prop := (∀ r ∈ sv.sent, SaneId r.1) ∧ (sv.unacked = true → sv.sent ≠ [])

/-- A POST with this data acknowledges the last response. -/
def EqServer.Acked (sv : EqServer) (post : Llsd) : Prop := ∃ m r, post = .map m ∧ sv.sent.getLast? = some r ∧ Dict.get? m "ack" = some r.1

open Classical in
/-- The simulator takes note of the acknowledgement in a POST. -/
noncomputable def EqServer.register (sv : EqServer) (post : Llsd) : EqServer := if sv.Acked post then { sv with unacked := false } else sv

/-- What the simulator answers then: the last response as long as it is not acknowledged, otherwise a new one with some of the events that wait (perhaps none), with
an id that is not that of the previous one. -/
inductive EqServer.Answers (sv : EqServer) : Llsd × List Event → EqServer → Prop
  | again {r : Llsd × List Event} : sv.unacked = true → sv.sent.getLast? = some r → Answers sv r sv
  | new (id : Llsd) (n : Nat) : sv.unacked = false → SaneId id → (∀ r, sv.sent.getLast? = some r → r.1 ≠ id) →
      Answers sv (id, sv.waiting.take n) { waiting := sv.waiting.drop n, sent := sv.sent ++ [(id, sv.waiting.take n)], unacked := true }

/-- A new client polls a simulator that was in state `sv0`; what has happened since (events), how many polls have failed.  A poll fails because the request is lost, because the simulator
answers with an error (a timeout, say), or because the answer is lost.  `d`, `h` are the client's template and message handler. -/
inductive Polling (d : TemplateDict) (h : EqHandler) (sv0 : EqServer) : List Event → Nat → EqState → EqServer → Prop
  | start : Polling d h sv0 [] 0 { running := true } sv0
  | happens {evs f st sv} (e : Event) : Polling d h sv0 evs f st sv → Polling d h sv0 (evs ++ [e]) f st { sv with waiting := sv.waiting ++ [e] }
  | requestLost {evs f st sv} (x : Exc) : Polling d h sv0 evs f st sv → Polling d h sv0 evs (f + 1) (eqPoll d h st (.failure x)) sv
  | serverError {evs f st sv} (x : Exc) (post : Llsd) : Polling d h sv0 evs f st sv → (eqPoll d h st (.failure x)).posts = st.posts ++ [post] →
      Polling d h sv0 evs (f + 1) (eqPoll d h st (.failure x)) (sv.register post)
  | answerLost {evs f st sv sv'} (x : Exc) (post : Llsd) (r : Llsd × List Event) : Polling d h sv0 evs f st sv →
      (eqPoll d h st (.failure x)).posts = st.posts ++ [post] → (sv.register post).Answers r sv' → Polling d h sv0 evs (f + 1) (eqPoll d h st (.failure x)) sv'
  | answered {evs f st sv sv'} (v post : Llsd) (r : Llsd × List Event) : Polling d h sv0 evs f st sv →
      (eqPoll d h st (.response v)).posts = st.posts ++ [post] → (sv.register post).Answers r sv' → IsResponse (Known d) v r.1 r.2 →
      Polling d h sv0 evs f (eqPoll d h st (.response v)) sv'

/-- A simulator and its clients, one after the other; what all of them handed over, and how often they did not get what they asked for or did not get rid of their last
acknowledgement: a client stops and its final POST reaches the simulator (its answer may be lost), or there is none because the client received nothing; or it ends in any other way (it crashes, its final
POST is lost). -/
inductive Clients (d : TemplateDict) (h : EqHandler) (sv0 : EqServer) : List Event → List Message → Nat → EqServer → Prop
  | none : Clients d h sv0 [] [] 0 sv0
  | stopped {es ms n sv evs f st sv' post} (final : PollOutcome) : Clients d h sv0 es ms n sv → Polling d h sv evs f st sv' →
      (processRegion d h [] final st).2.posts = st.posts ++ [post] → Clients d h sv0 (es ++ evs) (ms ++ st.delivered) (n + f) (sv'.register post)
  | idle {es ms n sv evs f st sv'} (final : PollOutcome) : Clients d h sv0 es ms n sv → Polling d h sv evs f st sv' →
      (processRegion d h [] final st).2.posts = st.posts → Clients d h sv0 (es ++ evs) (ms ++ st.delivered) (n + f) sv'
  | crashed {es ms n sv evs f st sv'} : Clients d h sv0 es ms n sv → Polling d h sv evs f st sv' →
      Clients d h sv0 (es ++ evs) (ms ++ st.delivered) (n + f + 1) sv'

/-- How many responses were made and acknowledged: the next client gets those after them. -/
def EqServer.done (sv : EqServer) : Nat := if sv.unacked then sv.sent.length - 1 else sv.sent.length

/-- Responses, each handed over a number of times in a row. -/
def handedOver (rs : List (Llsd × List Event)) (times : List Nat) : List Message :=
  (rs.zip times).flatMap (fun x => (List.replicate x.2 (responseMessages x.1)).flatten)

end Pyogp.Spec
