import Verif.Model.BothRoads
import Verif.Spec.UdpExact

/-!
# Specification: one message handler for both roads
-/

namespace Pyogp.Spec

/-- The replies to polls in a history. -/
def pollsOf (ops : List BOp) : List PollOutcome := ops.filterMap (fun o => match o with | .poll p => some p | .udp _ => none)

/-- What the event queue of a manager does, all alone, with some handler of messages (C38, C39). -/
def eqAlone (d : TemplateDict) (h : EqHandler) (ops : List BOp) : EqState := (pollsOf ops).foldl (eqPoll d h) {}

/-- A message is sent or a host object changed. -/
def IsSending : Op → Prop
  | .send .. => True
  | .setHost .. => True
  | _ => False

/-- What the dispatcher of the other properties returns and does in a history of a manager; with every poll, what the subscribers of its events do. -/
def managerRun (env : DEnv) : DState → List (BOp × List Op) → List OpResult × DState
  | st, [] => ([], st)
  | st, (.udp (.op o), _) :: l => let x := managerRun env (step env st o) l; (opResult env st o :: x.1, x.2)
  | st, (.udp (.subs _), _) :: l => let x := managerRun env st l; (.nothing :: x.1, x.2)
  | st, (.poll _, acts) :: l => let x := managerRun env (runOps env st acts) l; (.nothing :: x.1, x.2)

/-- Something due for messages with the subscriptions of the moment they are handed over, over a history. -/
def dueAlong {β : Type} (due : (String → List Sub) → List Message → List β) : (String → List Sub) → List (BOp × List Message) → List β
  | _, [] => []
  | subs, (.udp (.subs o), _) :: l => dueAlong due (subsAfter subs [o]) l
  | subs, (.udp (.op _), g) :: l => due subs g ++ dueAlong due subs l
  | subs, (.poll _, g) :: l => due subs g ++ dueAlong due subs l

/-- What was handed over by polls. -/
def atPolls (l : List (BOp × List Message)) : List Message := l.flatMap (fun x => match x.1 with | .poll _ => x.2 | .udp _ => [])

/-- What was handed over by the dispatcher. -/
def atUdp (l : List (BOp × List Message)) : List Message := l.flatMap (fun x => match x.1 with | .poll _ => [] | .udp _ => x.2)

/-- The changes of subscriptions in a history. -/
def changesOf (ops : List BOp) : List SubOp := ops.filterMap (fun o => match o with | .udp (.subs o) => some o | _ => none)

/-- These events are handed over one after the other, until one of the subscribers raises (and it is no `KeyError`): those handed over so far, and the dispatcher they send with. -/
def handEvents (env : DEnv) (B : Fixed) (subs : String → List Sub) : List Message → List Message → DState → List Message × DState
  | [], done, d => (done, d)
  | m :: l, done, d =>
    match (allOf B (subs m.name) m).run (send env) d with
    | (.ok _, d) => handEvents env B subs l (done ++ [m]) d
    | (.error _, d) => (done ++ [m], d)

/-- An operation of the dispatcher or a reply to a poll; the reply brings the events that the event queue would hand over if no subscriber raised. -/
def exactStep (env : DEnv) (t : TemplateDict) (B : Fixed) (subs : String → List Sub) (d : DState) (eq : EqState) : Op ⊕ PollOutcome → OpResult × DState × EqState
  | .inl o => (opResult env d o, step env d o, eq)
  | .inr p =>
    let quiet := eqPoll t (fun _ => .ok ()) eq p
    let x := handEvents env B subs (quiet.delivered.drop eq.delivered.length) eq.delivered d
    (.nothing, x.2, { quiet with delivered := x.1 })

/-- A history of these. -/
def exactRun (env : DEnv) (t : TemplateDict) (B : Fixed) (subs : String → List Sub) : DState → EqState → List (Op ⊕ PollOutcome) → List OpResult × DState × EqState
  | d, eq, [] => ([], d, eq)
  | d, eq, o :: ops =>
    let x := exactStep env t B subs d eq o
    let y := exactRun env t B subs x.2.1 x.2.2 ops
    (x.1 :: y.1, y.2)

/-- The history of a manager without changes of subscriptions. -/
def asBOps (ops : List (Op ⊕ PollOutcome)) : List BOp := ops.map (fun o => match o with | .inl o => .udp (.op o) | .inr p => .poll p)

end Pyogp.Spec
