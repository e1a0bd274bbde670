import Verif.Spec.Coroutines

/-!
# Specification: progress of the coroutines of a manager
-/

namespace Pyogp.Spec

/-- How often in the history the `i`-th UDP loop was run. -/
def turns (i : Nat) (as : List Act) : Nat := as.countP (fun a => match a with | .udp j _ _ => j == i | _ => false)

/-- How many urgent messages (`now = True`) were enqueued. -/
def urgentIn (as : List Act) : Nat := (enqueuedIn as).countP (·.now)

/-- The `i`-th UDP loop was left by an exception. -/
def Raised (w : World) (i : Nat) : Prop := ∃ x, w.loops[i]? = some (.raised x)

/-- The `i`-th UDP loop exists and has not ended. -/
def Running (w : World) (i : Nat) : Prop := ∃ pc, w.loops[i]? = some pc ∧ Alive pc = true

/-- How often in the history the `i`-th UDP loop got something (a datagram or a failure) from the socket. -/
def readsBy (env : CEnv) (i : Nat) : World → List Act → Nat
  | _, [] => 0
  | w, a :: as =>
    (match a with
      | .udp j _ _ => if j = i ∧ w.loops[i]? = some .receiving then 1 else 0
      | _ => 0) + readsBy env i (act env w a) as

/-- How often in the history the `i`-th coroutine of the event queue was run / made a poll. -/
def pollTurns (i : Nat) (as : List Act) : Nat := as.countP (fun a => match a with | .poller j _ => j == i | _ => false)

def pollsBy (env : CEnv) (i : Nat) : World → List Act → Nat
  | _, [] => 0
  | w, a :: as =>
    (match a with
      | .poller j _ => if j = i ∧ w.pollers[i]? = some .sleeping then 1 else 0
      | _ => 0) + pollsBy env i (act env w a) as

/-- The event queue is not told to stop in this history. -/
def NoStopQueue (as : List Act) : Prop := .stop ∉ as ∧ .stopQueue ∉ as

/-- An endless history, and its first `n` actions. -/
abbrev Schedule := Nat → Act
def Schedule.first (s : Schedule) (n : Nat) : List Act := (List.range n).map s

end Pyogp.Spec
