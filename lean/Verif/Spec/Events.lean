import Verif.Model.Events

/-!
# Specification: subscriptions
-/

namespace Pyogp.Spec

/-- The calls made by notifications at one nesting level. -/
def callsAt {α : Type} (level : Nat) (calls : List (Call α)) : List (Call α) := calls.filter (fun c => c.level = level)

/-- The call a subscription is notified with: the event's argument followed by the arguments given when subscribing. -/
def callOf {α : Type} (level : Nat) (ev : String) (x : α) (s : Sub) : Call α := ⟨level, ev, s.handler, (x, s.args), s.kwargs⟩

/-- A history of one event. -/
inductive EventOp
  | subscribe (s : Sub)
  | unsubscribe (s : Sub)
  | clear
  deriving DecidableEq, Repr

/-- Cancel the earliest subscription equal to `s` that is still in force. -/
def cancelFirst (s : Sub) : List (Sub × Bool) → List (Sub × Bool)
  | [] => []
  | (t, live) :: l => if live && t = s then (t, false) :: l else (t, live) :: cancelFirst s l

/-- All subscriptions ever made, in order, with a mark whether they are still in force.  Clearing the subscribers cancels none. -/
def ledger (ops : List EventOp) : List (Sub × Bool) :=
  ops.foldl (fun l op =>
    match op with
    | .subscribe s => l ++ [(s, true)]
    | .unsubscribe s => cancelFirst s l
    | .clear => l) []

/-- Those still in force. -/
def inForce (l : List (Sub × Bool)) : List Sub := (l.filter (·.2)).map (·.1)

/-- A subscriber's handler was called in state `st` and, when it was done (or raised), left the state `st₁`. -/
def Handled {α : Type} (beh : Behaviour α) (fire : String → α → EvState α → Option (Py Unit) × EvState α) (level : Nat) (ev : String) (x : α)
    (s : Sub) (st st₁ : EvState α) : Prop :=
  ∃ r, (beh (st.calls ++ [callOf level ev x s])).run fire { st with calls := st.calls ++ [callOf level ev x s] } = (some r, st₁)

/-- Going through the subscribers of an event by position while they change: `Visits handled ev i st called j st'` if, starting at position `i` in
state `st`, the subscribers `called` are met and called one after the other – each being the one at the current position of the list as the
handlers called before have left it –, and the next position is `j` in state `st'`. -/
inductive Visits {α : Type} (handled : Sub → EvState α → EvState α → Prop) (ev : String) : Nat → EvState α → List Sub → Nat → EvState α → Prop
  | here (i : Nat) (st : EvState α) : Visits handled ev i st [] i st
  | step {i : Nat} {st : EvState α} {s : Sub} {st₁ : EvState α} {called : List Sub} {j : Nat} {st' : EvState α} (hs : (st.subs ev)[i]? = some s)
      (hh : handled s st st₁) (h : Visits handled ev (i + 1) st₁ called j st') : Visits handled ev i st (s :: called) j st'

/-- The program never unsubscribes from this event / never subscribes to this event. -/
def NoUnsub {α : Type} (ev : String) : EvProg α → Prop
  | .done => True
  | .raise _ => True
  | .subscribe _ _ k => NoUnsub ev k
  | .unsubscribe ev' _ k => ev' ≠ ev ∧ ∀ r, NoUnsub ev (k r)
  | .register _ k => NoUnsub ev k
  | .fire _ _ k => ∀ r, NoUnsub ev (k r)

def NoSub {α : Type} (ev : String) : EvProg α → Prop
  | .done => True
  | .raise _ => True
  | .subscribe ev' _ k => ev' ≠ ev ∧ NoSub ev k
  | .unsubscribe _ _ k => ∀ r, NoSub ev (k r)
  | .register _ k => NoSub ev k
  | .fire _ _ k => ∀ r, NoSub ev (k r)

/-- The program fires only events of `S`, and subscribes to events of `S` at most `k` times (to others as often as it likes). -/
def AtMost {α : Type} (S : String → Prop) : Nat → EvProg α → Prop
  | _, .done => True
  | _, .raise _ => True
  | k, .subscribe ev _ p => (¬ S ev ∧ AtMost S k p) ∨ (0 < k ∧ AtMost S (k - 1) p)
  | k, .unsubscribe _ _ p => ∀ r, AtMost S k (p r)
  | k, .register _ p => AtMost S k p
  | k, .fire ev _ p => S ev ∧ ∀ r, AtMost S k (p r)

end Pyogp.Spec
