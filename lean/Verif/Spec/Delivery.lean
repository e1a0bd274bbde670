import Verif.Spec.Pair
import Verif.Spec.Network
import Verif.Spec.Progress

/-!
# Specification: two managers and a network that loses nothing on the way from A to B
-/

namespace Pyogp.Spec

/-- The moves of A (`true`) or of B (`false`) in a common history. -/
def movesOf (s : Bool) (ms : List (Bool × Act)) : List Act := (ms.filter (·.1 == s)).map (·.2)

/-- The two after a common history. -/
def together (envA envB : CEnv) (s : World × World) (ms : List (Bool × Act)) : World × World :=
  (runActs envA s.1 (movesOf true ms), runActs envB s.2 (movesOf false ms))

/-- The datagrams on their way from A to B: A sent them to B's address and B has not received them yet. -/
def underway (addrB : Addr) (s : World × World) : List Bytes := (sentTo addrB s.1.m.disp.trace).drop (receivedDatagrams s.2.m.disp.trace).length

/-- What B's socket gives to a loop that waits for a datagram: the first one on its way, as coming from A; nothing only if there is none. -/
def Brings (ip : String) (port : Nat) (addrB : Addr) (s : World × World) : Act → Prop
  | .udp i input _ => input = if s.2.loops[i]? = some .receiving then (underway addrB s).head?.map (fun dg => ⟨ip, port, dg⟩) else none
  | _ => True

/-- A common history of two managers used through their queues.  What A sends to B is brought to B as soon as a loop of B reads; what B sends may be lost,
duplicated, delayed and reordered. -/
def Lossless (envA envB : CEnv) (ip : String) (port : Nat) (addrB : Addr) : World × World → List (Bool × Act) → Prop
  | _, [] => True
  | s, (true, x) :: ms => Usual s.1 x ∧ SentBy s.2 x ∧ Lossless envA envB ip port addrB (act envA s.1 x, s.2) ms
  | s, (false, x) :: ms => Usual s.2 x ∧ Brings ip port addrB s x ∧ Lossless envA envB ip port addrB (s.1, act envB s.2 x) ms

/-- An endless common history, its first `n` moves, and the `k` moves after these. -/
abbrev JointSchedule := Nat → Bool × Act
def JointSchedule.first (s : JointSchedule) (n : Nat) : List (Bool × Act) := (List.range n).map s

end Pyogp.Spec
