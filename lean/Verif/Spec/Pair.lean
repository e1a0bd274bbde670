import Verif.Spec.Coroutines
import Verif.Spec.System
import Verif.Spec.Manager

/-!
# Specification: programs that send through the queue, and two of them talking to each other
-/

namespace Pyogp.Spec

/-- Subscribers that do not use the dispatcher: they look at the message, may enqueue others (`Act.enqueue`), and return or raise. -/
def LooksOnly : Prog → Prop
  | .done => True
  | .raise _ => True
  | _ => False

/-- A program that leaves sending to the manager, with the default settings; its host object is not the one of the UDP client. -/
structure ThroughQueue (env : CEnv) : Prop where
  outgoing : env.m.disp.handleOutgoing = false
  depth : 0 < env.m.disp.depth
  host : env.m.host ≠ env.m.sender
  handler : ∀ tr m, LooksOnly (env.m.disp.handler tr m)

/-- What such a program may do in state `w`: it does not use the dispatcher itself and does not start a loop while another is alive.  (Acknowledging goes
through the circuits of `w`, in any order.) -/
def Usual (w : World) : Act → Prop
  | .disp _ => False
  | .start => liveLoops w = 0
  | .udp _ _ order => order.Perm w.m.disp.circuits.keys
  | _ => True

/-- A history of a manager used in this way. -/
inductive UsualHistory (env : CEnv) (w : World) : List Act → Prop
  | nil : UsualHistory env w []
  | snoc {as : List Act} (a : Act) : UsualHistory env w as → Usual (runActs env w as) a → UsualHistory env w (as ++ [a])

/-- A datagram that is received was sent by the other program at some time before. -/
def SentBy (other : World) : Act → Prop
  | .udp _ (some i) _ => ∃ x, (x, i.dg) ∈ sentDatagrams other.m.disp.trace
  | _ => True

/-- The histories of two managers and the network between them, which may lose, duplicate, delay, reorder and misdirect datagrams. -/
inductive Pair (envA envB : CEnv) (wA wB : World) : List Act → List Act → Prop
  | start : Pair envA envB wA wB [] []
  | actA {asA asB : List Act} (a : Act) : Pair envA envB wA wB asA asB → Usual (runActs envA wA asA) a → SentBy (runActs envB wB asB) a →
      Pair envA envB wA wB (asA ++ [a]) asB
  | actB {asA asB : List Act} (b : Act) : Pair envA envB wA wB asA asB → Usual (runActs envB wB asB) b → SentBy (runActs envA wA asA) b →
      Pair envA envB wA wB asA (asB ++ [b])

/-- All datagrams sent fit into the receiver's buffer (C82). -/
def FitsBuffer (tr : List Ev) : Prop := ∀ x ∈ sentDatagrams tr, x.2.length ≤ 10000

end Pyogp.Spec
