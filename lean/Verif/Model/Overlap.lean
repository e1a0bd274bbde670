import Verif.Model.Events

/-!
# Notifications that overlap

`events.py` and `message/message_handler.py` again, in a program with any number of coroutines: a subscriber may sleep, and while it does, other coroutines subscribe, unsubscribe
and fire events, also the one being notified.  Here a switch is possible before everything that a coroutine does.

All events of a program live in one store, under a name, as in `Model/Events`.
-/

namespace Pyogp

/-- What a coroutine or a subscriber does.  (Sleeping is nothing: a switch is possible anywhere.) -/
inductive CoProg (α : Type)
  | done
  | raise (e : Exc)
  | subscribe (ev : String) (s : Sub) (k : CoProg α)
  | unsubscribe (ev : String) (s : Sub) (k : Py Unit → CoProg α)
  | register (ev : String) (k : CoProg α)
  /-- `events.py:53-65` (`notify`) -/
  | notify (ev : String) (x : α) (k : Py Unit → CoProg α)
  /-- `message_handler.py:66-82` (`handle`) -/
  | handle (ev : String) (x : α) (k : Py Unit → CoProg α)

/-- A notification in progress: the event and its argument, the position of the `for` loop of `events.py:55`, whether it was started by `message_handler.py:78`, and what the coroutine does afterwards. -/
structure CoFrame (α : Type) where
  number : Nat
  event : String
  arg : α
  pos : Nat := 0
  handler : Bool
  k : Py Unit → CoProg α

/-- A coroutine: what it does now, the notifications it is in (the innermost first), and how many it has started. -/
structure Coro (α : Type) where
  cur : CoProg α
  stack : List (CoFrame α) := []
  started : Nat := 0

/-- A notification: the coroutine it is in, and its number there. -/
abbrev NotifyId := Nat × Nat

/-- A call `instance(args, *inner_args, **kwargs)` (`events.py:59`). -/
structure CoCall (α : Type) where
  handler : Nat
  args : α × List Nat
  kwargs : List (String × Nat)
  deriving DecidableEq, Repr

/-- What can be observed. -/
inductive CoEv (α : Type)
  | subscribed (ev : String) (s : Sub)
  | unsubscribed (ev : String) (s : Sub)
  | started (id : NotifyId) (ev : String) (x : α)
  | called (id : NotifyId) (c : CoCall α)
  | ended (id : NotifyId) (r : Py Unit)
  deriving DecidableEq

/-- The registered names (`message_handler.py:43`), the subscribers of every event, the coroutines, and what has happened. -/
structure CoState (α : Type) where
  names : List String := []
  subs : String → List Sub := fun _ => []
  coros : List (Coro α) := []
  trace : List (CoEv α) := []

/-- What subscribers do, given what has happened (the last thing being their call). -/
abbrev CoBehaviour (α : Type) := List (CoEv α) → CoProg α

def CoState.log {α : Type} (st : CoState α) (e : CoEv α) : CoState α := { st with trace := st.trace ++ [e] }
def CoState.put {α : Type} (st : CoState α) (j : Nat) (c : Coro α) : CoState α := { st with coros := st.coros.set j c }
def CoState.setSubs {α : Type} (st : CoState α) (ev : String) (l : List Sub) : CoState α := { st with subs := fun n => if n = ev then l else st.subs n }

/-- `events.py:53-55`: a notification begins, unless Python's recursion limit has been reached. -/
def startNotify {α : Type} (limit : Nat) (st : CoState α) (j : Nat) (c : Coro α) (ev : String) (x : α) (handler : Bool) (k : Py Unit → CoProg α) : CoState α :=
  if limit ≤ c.stack.length then st.put j { c with cur := k (.error .runtimeError) }
  else (st.log (.started (j, c.started) ev x)).put j ⟨.done, ⟨c.started, ev, x, 0, handler, k⟩ :: c.stack, c.started + 1⟩

/-- Coroutine `j` does one thing. -/
def coStep {α : Type} (limit : Nat) (beh : CoBehaviour α) (st : CoState α) (j : Nat) : CoState α :=
  match st.coros[j]? with
  | none => st
  | some c =>
    match c.cur with
    | .done =>
      match c.stack with
      | [] => st
      | f :: fs =>
        -- `events.py:55-59`: a `for` loop over the live list, so the position is compared with its current length
        match (st.subs f.event)[f.pos]? with
        | none => (st.log (.ended (j, f.number) (.ok ()))).put j { c with cur := f.k (.ok ()), stack := fs }
        | some s =>
          let st := st.log (.called (j, f.number) ⟨s.handler, (f.arg, s.args), s.kwargs⟩)
          st.put j { c with cur := beh st.trace, stack := { f with pos := f.pos + 1 } :: fs }
    | .raise e =>
      match c.stack with
      | [] => st
      | f :: fs =>
        -- `events.py:61-65`; `message_handler.py:80-82`
        (st.log (.ended (j, f.number) (.error e))).put j { c with cur := f.k (if f.handler = true ∧ e = .keyError then .ok () else .error e), stack := fs }
    | .subscribe ev s k =>
      -- `events.py:33-38`
      ((st.setSubs ev (eventSubscribe (st.subs ev) s)).log (.subscribed ev s)).put j { c with cur := k }
    | .unsubscribe ev s k =>
      -- `events.py:40-51`
      match eventUnsubscribe (st.subs ev) s with
      | (.error e, _) => st.put j { c with cur := k (.error e) }
      | (.ok _, l) => ((st.setSubs ev l).log (.unsubscribed ev s)).put j { c with cur := k (.ok ()) }
    | .register ev k =>
      -- `message_handler.py:45-49`
      ({ st with names := if ev ∈ st.names then st.names else st.names ++ [ev] } : CoState α).put j { c with cur := k }
    | .notify ev x k => startNotify limit st j c ev x false k
    | .handle ev x k =>
      -- `message_handler.py:71-78`
      if ev ∈ st.names ∧ 0 < (st.subs ev).length then startNotify limit st j c ev x true k else st.put j { c with cur := k (.ok ()) }

/-- What happens next: a coroutine begins, or one of them does one thing. -/
inductive CoAct (α : Type)
  | spawn (p : CoProg α)
  | run (j : Nat)

/-- A schedule. -/
def coRun {α : Type} (limit : Nat) (beh : CoBehaviour α) (st : CoState α) (acts : List (CoAct α)) : CoState α :=
  acts.foldl (fun st a =>
    match a with
    | .spawn p => { st with coros := st.coros ++ [⟨p, [], 0⟩] }
    | .run j => coStep limit beh st j) st

end Pyogp
