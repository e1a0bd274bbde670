import Verif.Model.Overlap

/-!
# Specification: notifications that do not overlap
-/

namespace Pyogp.Spec
variable {α : Type}

/-- A handler of `Model/Events`, as a program of a coroutine. -/
def asCo : EvProg α → CoProg α
  | .done => .done
  | .raise e => .raise e
  | .subscribe ev s k => .subscribe ev s (asCo k)
  | .unsubscribe ev s k => .unsubscribe ev s (fun r => asCo (k r))
  | .register ev k => .register ev (asCo k)
  | .fire ev x k => .notify ev x (fun r => asCo (k r))

/-- A call, without the event and the nesting level. -/
def bare (c : Call α) : CoCall α := ⟨c.handler, c.args, c.kwargs⟩

/-- All calls, in order. -/
def allCalls (tr : List (CoEv α)) : List (CoCall α) := tr.filterMap (fun e => match e with | .called _ c => some c | _ => none)

/-- The same registered names, subscribers and calls. -/
structure SameSoFar (st : EvState α) (co : CoState α) : Prop where
  names : co.names = st.names
  subs : co.subs = st.subs
  calls : allCalls co.trace = st.calls.map bare

/-- What is left of a coroutine whose program has returned, or raised. -/
def endOf : Py Unit → CoProg α
  | .ok _ => .done
  | .error e => .raise e

/-- Coroutine `j` goes on alone for some steps: it comes to be `c`, in a state that agrees with `st`, and the other coroutines stay as they are. -/
def Alone (limit : Nat) (cb : List (CoCall α) → EvProg α) (j : Nat) (co : CoState α) (st : EvState α) (cur : CoProg α) (stack : List (CoFrame α)) : Prop :=
  ∃ n m co', coRun limit (fun tr => asCo (cb (allCalls tr))) co (List.replicate n (.run j)) = co' ∧ SameSoFar st co' ∧ co'.coros = co.coros.set j ⟨cur, stack, m⟩

end Pyogp.Spec
