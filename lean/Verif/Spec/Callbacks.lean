import Verif.Model.Callbacks

/-!
# Specification: subscribers that are not noticed
-/

namespace Pyogp.Spec

/-- The subscription because of which a call was made. -/
def subOf (c : Call Message) : Sub := ⟨c.handler, c.args.2, c.kwargs⟩

/-- The same dispatcher and registrations without these subscriptions, and without their calls. -/
def withoutSubs (q : Sub → Bool) (st : SubsState) : SubsState :=
  ⟨st.d, { names := st.ev.names, subs := fun n => (st.ev.subs n).filter (fun s => !q s), calls := st.ev.calls.filter (fun c => !q (subOf c)) }⟩

/-- Instead of subscribing such a function, the client only registers the name. -/
def withoutSubscribing (q : Sub → Bool) : SOp → SOp
  | .subs (.subscribe n s) => if q s then .subs (.register n) else .subs (.subscribe n s)
  | o => o

/-- The program sends, changes hosts, registers names and may raise, but leaves subscriptions alone. -/
inductive KeepsSubs : SProg → Prop
  | done : KeepsSubs .done
  | raise (e : Exc) : KeepsSubs (.raise e)
  | send (m : Message) (h : HostRef) (mode : SendMode) (k : Py (Option Bytes) → SProg) : (∀ x, KeepsSubs (k x)) → KeepsSubs (.send m h mode k)
  | setHost (h : HostRef) (v : Host) (k : SProg) : KeepsSubs k → KeepsSubs (.setHost h v k)
  | register (n : String) (k : SProg) : KeepsSubs k → KeepsSubs (.register n k)

/-- These subscribers do nothing; the others do what they do without them, and leave subscriptions alone. -/
structure Unnoticed (q : Sub → Bool) (beh beh0 : SBehaviour) : Prop where
  nothing : ∀ tr cs c, q (subOf c) = true → beh tr (cs ++ [c]) = .done
  others : ∀ tr cs c, q (subOf c) = false → beh tr (cs ++ [c]) = beh0 tr ((cs ++ [c]).filter (fun c => !q (subOf c)))
  keeps : ∀ tr cs, KeepsSubs (beh tr cs)

/-- `null_packet_handler` or `log_event_queue_data`, subscribed with one object. -/
def watcher (which : Nat → Option Callback) (s : Sub) : Bool :=
  (which s.handler == some .nullPacket || which s.handler == some .logEventQueueData) && Callback.binds s.args s.kwargs

end Pyogp.Spec
