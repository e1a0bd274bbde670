import Verif.Model.Base

/-!
# Events and message subscriptions

Models `events.py` and `message/message_handler.py`.

All events of a program live in one store, under a name (for a `MessageHandler` the message name).  What a handler does when
it is called is a function of everything that happened so far, so it may behave in any way: subscribe, unsubscribe, register, fire
events, raise.
-/

namespace Pyogp

/-- One entry of `Event.subscribers` (`events.py:36`): `(handler, args, kwargs)`.  Values are opaque; `kwargs` is a dictionary in a
canonical order, so that equality is Python's. -/
structure Sub where
  handler : Nat
  args : List Nat := []
  kwargs : List (String × Nat) := []
  deriving DecidableEq, Repr

/-- `events.py:33-38` (`subscribe`, `+=`). -/
def eventSubscribe (l : List Sub) (s : Sub) : List Sub := l ++ [s]

/-- `events.py:40-51` (`unsubscribe`, `-=`): `list.remove` takes the first equal entry; if there is none, building the message of
the `ValueError` fails with a `NameError` (line 49: `%s (handler)`). -/
def eventUnsubscribe (l : List Sub) (s : Sub) : Py Unit × List Sub :=
  if s ∈ l then (.ok (), l.erase s) else (.error .nameError, l)

/-- `events.py:67-69` (`getSubscriberCount`, `len`). -/
def eventCount (l : List Sub) : Nat := l.length

/-- `events.py:71-74` (`clearSubscribers`): a list has no `clear` in Python 2. -/
def eventClear (l : List Sub) : Py Unit × List Sub := (.error .attributeError, l)

/-- A call of a handler: `instance(args, *inner_args, **kwargs)` (`events.py:59`), during a notification of event `event` at nesting
level `level`. -/
structure Call (α : Type) where
  level : Nat
  event : String
  handler : Nat
  args : α × List Nat
  kwargs : List (String × Nat)
  deriving DecidableEq, Repr

/-- The registered names (`message_handler.py:43`), the subscribers of every event, and the calls made. -/
structure EvState (α : Type) where
  names : List String := []
  subs : String → List Sub := fun _ => []
  calls : List (Call α) := []

def EvState.setSubs {α : Type} (st : EvState α) (ev : String) (l : List Sub) : EvState α :=
  { st with subs := fun n => if n = ev then l else st.subs n }

/-- A call was made. -/
def EvState.log {α : Type} (st : EvState α) (c : Call α) : EvState α := { st with calls := st.calls ++ [c] }

/-- What a handler does. -/
inductive EvProg (α : Type)
  | done
  | raise (e : Exc)
  | subscribe (ev : String) (s : Sub) (k : EvProg α)
  | unsubscribe (ev : String) (s : Sub) (k : Py Unit → EvProg α)
  | register (ev : String) (k : EvProg α)
  | fire (ev : String) (x : α) (k : Py Unit → EvProg α)

/-- `message_handler.py:45-49` (`register`): `setdefault`. -/
def register {α : Type} (st : EvState α) (ev : String) : EvState α :=
  if ev ∈ st.names then st else { st with names := st.names ++ [ev] }

/-- Run a handler; `none`: it is still running when the fuel is used up. -/
def EvProg.run {α : Type} (fire : String → α → EvState α → Option (Py Unit) × EvState α) :
    EvProg α → EvState α → Option (Py Unit) × EvState α
  | .done, st => (some (.ok ()), st)
  | .raise e, st => (some (.error e), st)
  | .subscribe ev s k, st => k.run fire (st.setSubs ev (eventSubscribe (st.subs ev) s))
  | .unsubscribe ev s k, st => (k (eventUnsubscribe (st.subs ev) s).1).run fire (st.setSubs ev (eventUnsubscribe (st.subs ev) s).2)
  | .register ev k, st => k.run fire (Pyogp.register st ev)
  | .fire ev x k, st =>
    match fire ev x st with
    | (none, st) => (none, st)
    | (some r, st) => (k r).run fire st

/-- What handlers do, given the calls made so far (the last one being theirs). -/
abbrev Behaviour (α : Type) := List (Call α) → EvProg α

/-- `events.py:53-65` (`notify`): a `for` loop over the live list, so position `i` is compared with its current length.  The fuel bounds
the number of rounds. -/
def notifyLoop {α : Type} (beh : Behaviour α) (fire : String → α → EvState α → Option (Py Unit) × EvState α) (level : Nat)
    (ev : String) (x : α) : Nat → Nat → EvState α → Option (Py Unit) × EvState α
  | 0, _, st => (none, st)
  | fuel + 1, i, st =>
    match (st.subs ev)[i]? with
    | none => (some (.ok ()), st)
    | some s =>
      let st := st.log ⟨level, ev, s.handler, (x, s.args), s.kwargs⟩
      match (beh st.calls).run fire st with
      | (some (.ok _), st) => notifyLoop beh fire level ev x fuel (i + 1) st
      | (some (.error e), st) => (some (.error e), st)
      | (none, st) => (none, st)

/-- `events.py:53-65`, with handlers that fire events again; `level` is what is left of Python's recursion limit, `fuel` bounds the rounds
of every loop. -/
def notifyAt {α : Type} (beh : Behaviour α) (fuel : Nat) : Nat → String → α → EvState α → Option (Py Unit) × EvState α
  | 0, _, _, st => (some (.error .runtimeError), st)
  | level + 1, ev, x, st => notifyLoop beh (notifyAt beh fuel level) (level + 1) ev x fuel 0 st

/-- `message_handler.py:51-64` (`is_message_handled`). -/
def isMessageHandled {α : Type} (st : EvState α) (name : String) : Bool := name ∈ st.names

/-- `message_handler.py:66-82` (`handle`) of a message with this name: `except KeyError` also covers the handlers. -/
def handleMessage {α : Type} (beh : Behaviour α) (fuel level : Nat) (name : String) (x : α) (st : EvState α) :
    Option (Py Unit) × EvState α :=
  if name ∈ st.names then
    if 0 < (st.subs name).length then
      match notifyAt beh fuel level name x st with
      | (some (.error .keyError), st) => (some (.ok ()), st)
      | r => r
    else (some (.ok ()), st)
  else (some (.ok ()), st)

end Pyogp
