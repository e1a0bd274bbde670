import Verif.Model.UdpSubscribers

/-!
# The callbacks of `Helpers`

`helpers.py:146-163`: three functions of the library that are meant to be subscribed to messages.
-/

namespace Pyogp

inductive Callback
  | logPacket | logEventQueueData | nullPacket
  deriving DecidableEq, Repr

/-- `helpers.py:147,153,159`: all three have two parameters, the second one called `_object`.  Whether `f(packet, *args, **kwargs)` (`events.py:59`) is a call Python accepts. -/
def Callback.binds (args : List Nat) (kwargs : List (String × Nat)) : Bool :=
  (args.length == 1 && kwargs.isEmpty) || (args.isEmpty && (kwargs.map (·.1) == ["_object"]))

/-- `helpers.py:146-163`.  `log_packet` shows the message (`packet.data()`, `message.py:175-200`), which may raise; `log_event_queue_data` shows `__dict__`, that is, the name, numbers, and blocks by
their addresses (simplified: `host` can be shown, and messages have all attributes of `Message`).  Simplified: log messages have no other effect. -/
def Callback.run (m : Message) (args : List Nat) (kwargs : List (String × Nat)) : Callback → Py Unit
  | .logPacket => if Callback.binds args kwargs then m.render.map (fun _ => ()) else .error .typeError
  | .logEventQueueData => if Callback.binds args kwargs then .ok () else .error .typeError
  | .nullPacket => if Callback.binds args kwargs then .ok () else .error .typeError

/-- The same as the program of a subscriber (`events.py:59`). -/
def Callback.prog (c : Call Message) (cb : Callback) : SProg :=
  match cb.run c.args.1 c.args.2 c.kwargs with
  | .ok _ => .done
  | .error e => .raise e

/-- Subscribers some of which are these functions; the others do what `beh` says. -/
def withCallbacks (which : Nat → Option Callback) (beh : SBehaviour) : SBehaviour := fun tr cs =>
  match cs.getLast? with
  | none => beh tr cs
  | some c =>
    match which c.handler with
    | none => beh tr cs
    | some cb => cb.prog c

/-- The same as the program of a handler of an event (`events.py:59`). -/
def Callback.evProg (c : Call Message) (cb : Callback) : EvProg Message :=
  match cb.run c.args.1 c.args.2 c.kwargs with
  | .ok _ => .done
  | .error e => .raise e

/-- Handlers some of which are these functions (`helpers.py:146-163`); the others do what `beh` says. -/
def withCallbacksEv (which : Nat → Option Callback) (beh : Behaviour Message) : Behaviour Message := fun cs =>
  match cs.getLast? with
  | none => beh cs
  | some c =>
    match which c.handler with
    | none => beh cs
    | some cb => cb.evProg c

end Pyogp
