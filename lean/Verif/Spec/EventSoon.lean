import Verif.Spec.RegionEvents

/-!
# Specification: how soon events arrive
-/

namespace Pyogp.Spec

/-- A client that was in state `st0` goes on polling a simulator that was in state `sv0`: the events that have happened since, how many polls have succeeded since, and the states.  Compare `Polling`. -/
inductive Later (d : TemplateDict) (h : EqHandler) (st0 : EqState) (sv0 : EqServer) : List Event → Nat → EqState → EqServer → Prop
  | start : Later d h st0 sv0 [] 0 st0 sv0
  | happens {evs n st sv} (e : Event) : Later d h st0 sv0 evs n st sv → Later d h st0 sv0 (evs ++ [e]) n st { sv with waiting := sv.waiting ++ [e] }
  | poll {evs n st sv sv' ok} (o : PollOutcome) (post : Llsd) : Later d h st0 sv0 evs n st sv → (eqPoll d h st o).posts = st.posts ++ [post] → PollExchange d sv post o sv' ok →
      Later d h st0 sv0 evs (if ok then n + 1 else n) (eqPoll d h st o) sv'

/-- A manager that was in state `st0` goes on, compare `Serving` and `Later`. -/
inductive ServingLater (env : DEnv) (d : TemplateDict) (beh : SBehaviour) (fuel : Nat) (st0 : BothState) (sv0 : EqServer) : List Event → Nat → BothState → EqServer → Prop
  | start : ServingLater env d beh fuel st0 sv0 [] 0 st0 sv0
  | happens {evs n st sv} (e : Event) : ServingLater env d beh fuel st0 sv0 evs n st sv → ServingLater env d beh fuel st0 sv0 (evs ++ [e]) n st { sv with waiting := sv.waiting ++ [e] }
  | dispatcher {evs n st st' sv} (o : Op) (r : OpResult) : ServingLater env d beh fuel st0 sv0 evs n st sv → stepBoth env d beh fuel st (.udp (.op o)) = some (r, st') →
      ServingLater env d beh fuel st0 sv0 evs n st' sv
  | poll {evs n st st' sv sv' ok} (o : PollOutcome) (post : Llsd) (r : OpResult) : ServingLater env d beh fuel st0 sv0 evs n st sv → stepBoth env d beh fuel st (.poll o) = some (r, st') →
      st'.eq.posts = st.eq.posts ++ [post] → PollExchange d sv post o sv' ok → ServingLater env d beh fuel st0 sv0 evs (if ok then n + 1 else n) st' sv'

end Pyogp.Spec
