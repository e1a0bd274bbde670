import Verif.Spec.BothRoads
import Verif.Spec.EventServer

/-!
# Specification: from a simulator's events to the subscribers of a manager
-/

namespace Pyogp.Spec

/-- A simulator gets a poll with this data, or does not; the outcome for the client, and whether it is a response: compare `Polling`. -/
inductive PollExchange (d : TemplateDict) (sv : EqServer) (post : Llsd) : PollOutcome → EqServer → Bool → Prop
  | requestLost (x : Exc) : PollExchange d sv post (.failure x) sv false
  | serverError (x : Exc) : PollExchange d sv post (.failure x) (sv.register post) false
  | answerLost (x : Exc) {r : Llsd × List Event} {sv' : EqServer} : (sv.register post).Answers r sv' → PollExchange d sv post (.failure x) sv' false
  | answered (v : Llsd) {r : Llsd × List Event} {sv' : EqServer} : (sv.register post).Answers r sv' → IsResponse (Known d) v r.1 r.2 → PollExchange d sv post (.response v) sv' true

/-- A new manager polls a simulator that was in state `sv0`, and does anything at all with its dispatcher meanwhile: what has happened (events), how many polls have failed, the manager, the simulator. -/
inductive Serving (env : DEnv) (d : TemplateDict) (beh : SBehaviour) (fuel : Nat) (udp : SubsState) (sv0 : EqServer) : List Event → Nat → BothState → EqServer → Prop
  | start : Serving env d beh fuel udp sv0 [] 0 { udp := udp, eq := { running := true } } sv0
  | happens {evs f st sv} (e : Event) : Serving env d beh fuel udp sv0 evs f st sv → Serving env d beh fuel udp sv0 (evs ++ [e]) f st { sv with waiting := sv.waiting ++ [e] }
  | dispatcher {evs f st st' sv} (o : Op) (r : OpResult) : Serving env d beh fuel udp sv0 evs f st sv → stepBoth env d beh fuel st (.udp (.op o)) = some (r, st') →
      Serving env d beh fuel udp sv0 evs f st' sv
  | poll {evs f st st' sv sv' ok} (o : PollOutcome) (post : Llsd) (r : OpResult) : Serving env d beh fuel udp sv0 evs f st sv → stepBoth env d beh fuel st (.poll o) = some (r, st') →
      st'.eq.posts = st.eq.posts ++ [post] → PollExchange d sv post o sv' ok → Serving env d beh fuel udp sv0 evs (if ok then f else f + 1) st' sv'

/-- A simulator and its managers, one after the other, all with the same subscriptions: the events that have happened, the calls of subscribers for received messages, the messages that came over UDP, how
many polls failed or managers ended without their final POST reaching the simulator, and the simulator.  The last two cases: a manager stops without having received a response; it ends in any other way. -/
inductive Managers (env : DEnv) (d : TemplateDict) (beh : SBehaviour) (fuel : Nat) (subs : String → List Sub) (sv0 : EqServer) :
    List Event → List (Call Message) → List Message → Nat → EqServer → Prop
  | none : Managers env d beh fuel subs sv0 [] [] [] 0 sv0
  | stopped {es cs us n sv evs f st sv' post} (hosts : HostRef → Host) (names : List String) (final : PollOutcome) : Managers env d beh fuel subs sv0 es cs us n sv →
      (∀ k, k ∉ names → subs k = []) → Serving env d beh fuel ⟨DState.init hosts, { names := names, subs := subs }⟩ sv evs f st sv' →
      (processRegion d (fun _ => .ok ()) [] final st.eq).2.posts = st.eq.posts ++ [post] →
      Managers env d beh fuel subs sv0 (es ++ evs) (cs ++ callsAt env.depth st.udp.ev.calls) (us ++ deliveredMessages st.udp.d.trace) (n + f) (sv'.register post)
  | idle {es cs us n sv evs f st sv'} (hosts : HostRef → Host) (names : List String) (final : PollOutcome) : Managers env d beh fuel subs sv0 es cs us n sv →
      (∀ k, k ∉ names → subs k = []) → Serving env d beh fuel ⟨DState.init hosts, { names := names, subs := subs }⟩ sv evs f st sv' →
      (processRegion d (fun _ => .ok ()) [] final st.eq).2.posts = st.eq.posts →
      Managers env d beh fuel subs sv0 (es ++ evs) (cs ++ callsAt env.depth st.udp.ev.calls) (us ++ deliveredMessages st.udp.d.trace) (n + f) sv'
  | crashed {es cs us n sv evs f st sv'} (hosts : HostRef → Host) (names : List String) : Managers env d beh fuel subs sv0 es cs us n sv →
      (∀ k, k ∉ names → subs k = []) → Serving env d beh fuel ⟨DState.init hosts, { names := names, subs := subs }⟩ sv evs f st sv' →
      Managers env d beh fuel subs sv0 (es ++ evs) (cs ++ callsAt env.depth st.udp.ev.calls) (us ++ deliveredMessages st.udp.d.trace) (n + f + 1) sv'

end Pyogp.Spec
