import Verif.Model.EqSubscribers
import Verif.Model.Callbacks

/-!
# Specification: handlers of events that are not noticed
-/

namespace Pyogp.Spec

/-- The subscription because of which a call was made. -/
def causeOf {α : Type} (c : Call α) : Sub := ⟨c.handler, c.args.2, c.kwargs⟩

/-- The same registrations and subscriptions without these, and without their calls. -/
def leaveOut {α : Type} (q : Sub → Bool) (st : EvState α) : EvState α :=
  { names := st.names, subs := fun n => (st.subs n).filter (fun s => !q s), calls := st.calls.filter (fun c => !q (causeOf c)) }

/-- The program registers names, fires events, adds subscriptions other than these and may raise, but cancels no subscription. -/
inductive CancelsNone {α : Type} (q : Sub → Bool) : EvProg α → Prop
  | done : CancelsNone q .done
  | raise (e : Exc) : CancelsNone q (.raise e)
  | subscribe (ev : String) (s : Sub) (k : EvProg α) : q s = false → CancelsNone q k → CancelsNone q (.subscribe ev s k)
  | register (ev : String) (k : EvProg α) : CancelsNone q k → CancelsNone q (.register ev k)
  | fire (ev : String) (x : α) (k : Py Unit → EvProg α) : (∀ r, CancelsNone q (k r)) → CancelsNone q (.fire ev x k)

/-- These subscribers do nothing; the others do what they do without them, and cancel no subscription. -/
structure DoesNothing {α : Type} (q : Sub → Bool) (beh beh0 : Behaviour α) : Prop where
  nothing : ∀ cs c, q (causeOf c) = true → beh (cs ++ [c]) = .done
  others : ∀ cs c, q (causeOf c) = false → beh (cs ++ [c]) = beh0 ((cs ++ [c]).filter (fun c => !q (causeOf c)))
  cancels : ∀ cs, CancelsNone q (beh cs)

/-- Instead of subscribing such a function, only the name is registered. -/
def onlyRegister (q : Sub → Bool) : SubOp → SubOp
  | .subscribe n s => if q s then .register n else .subscribe n s
  | o => o

/-- The event queue client, its deliveries and results, with the registrations of `leaveOut`. -/
def leaveOutEq (q : Sub → Bool) (st : EqSubs) : EqSubs := { st with ev := leaveOut q st.ev }

end Pyogp.Spec
