import Verif.Model.Coroutines

/-!
# Specification: histories of a manager with coroutines
-/

namespace Pyogp.Spec

/-- The loop has not ended. -/
def Alive : UdpAt → Bool
  | .returned => false
  | .raised _ => false
  | _ => true

/-- How many loops have not ended. -/
def liveLoops (w : World) : Nat := w.loops.countP Alive

/-- What was enqueued in a history. -/
def enqueuedIn (as : List Act) : List QEntry := as.filterMap (fun a => match a with | .enqueue e => some e | _ => none)

/-- What the program did with the dispatcher itself. -/
def directIn (as : List Act) : List Op := as.filterMap (fun a => match a with | .disp o => some o | _ => none)

/-- The history never calls `start_monitors` / `stop_monitors` / `enqueue_message`. -/
def NoStart (as : List Act) : Prop := .start ∉ as
def NoStop (as : List Act) : Prop := .stop ∉ as
def NoEnqueue (as : List Act) : Prop := enqueuedIn as = []

/-- Who used the dispatcher: the program itself, or a UDP loop. -/
inductive User | program | loop
  deriving DecidableEq

/-- The use a loop makes of the dispatcher for a queued message. -/
def queuedSend (host : HostRef) (e : QEntry) : Op := .send e.msg host (if e.reliable then .reliable 0 else .plain)

/-- The operations of a history of the dispatcher that this user made / those of them that send. -/
def usesOf (u : User) (h : List (User × Op)) : List Op := (h.filter (fun p => p.1 = u)).map (·.2)
def sendsOf (ops : List Op) : List Op := ops.filter (fun o => match o with | .send .. => true | _ => false)

/-- How often in the history a UDP loop that has not ended was run. -/
def switches (env : CEnv) : World → List Act → Nat
  | _, [] => 0
  | w, a :: as =>
    (match a with
      | .udp i _ _ => if (w.loops[i]?.map Alive).getD false then 1 else 0
      | _ => 0) + switches env (act env w a) as

/-- The responses (or failures) of the event queue's server in a history, most of which no coroutine was waiting for. -/
def responsesIn (as : List Act) : List PollOutcome := as.filterMap (fun a => match a with | .poller _ o => some o | _ => none)

/-- How many event-queue coroutines are in their pause before a poll. -/
def pausing (w : World) : Nat := w.pollers.countP (· = .sleeping)

/-- `start_monitors` is called at most once. -/
def StartsOnce (as : List Act) : Prop := (as.filter (fun a => match a with | .start => true | _ => false)).length ≤ 1

end Pyogp.Spec
