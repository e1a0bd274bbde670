import Verif.Spec.Pair

/-!
# Specification: two programs over a network that duplicates nothing
-/

namespace Pyogp.Spec

/-- The default configuration, as far as acknowledgements are concerned: messages without a handler are not parsed, and nobody subscribed to
`PacketAck`. -/
def IgnoresAcks (env : CEnv) : Prop :=
  ∀ tr, (env.m.disp.deser tr).deferred = true ∧ ∃ names, (env.m.disp.deser tr).handled? = some names ∧ "PacketAck" ∉ names

/-- A datagram that arrives has a source port. -/
def FromPort : Act → Prop
  | .udp _ (some i) _ => i.port ≠ 0
  | _ => True

/-- No datagram arrived at `w` more often than `other` has sent it. -/
def NoneTwice (w other : World) : Prop :=
  ∀ dg, (receivedDatagrams w.m.disp.trace).count dg ≤ ((sentDatagrams other.m.disp.trace).map (·.2)).count dg

/-- Every datagram `other` sent has arrived at `w`, as often as it was sent. -/
def AllArrived (w other : World) : Prop := (receivedDatagrams w.m.disp.trace).Perm ((sentDatagrams other.m.disp.trace).map (·.2))

/-- The histories of two managers and a network between them that may lose, delay and reorder datagrams, but not duplicate them. -/
inductive Exchange (envA envB : CEnv) (wA wB : World) : List Act → List Act → Prop
  | start : Exchange envA envB wA wB [] []
  | actA {asA asB : List Act} (a : Act) : Exchange envA envB wA wB asA asB → Usual (runActs envA wA asA) a → SentBy (runActs envB wB asB) a → FromPort a →
      NoneTwice (runActs envA wA (asA ++ [a])) (runActs envB wB asB) → Exchange envA envB wA wB (asA ++ [a]) asB
  | actB {asA asB : List Act} (b : Act) : Exchange envA envB wA wB asA asB → Usual (runActs envB wB asB) b → SentBy (runActs envA wA asA) b → FromPort b →
      NoneTwice (runActs envB wB (asB ++ [b])) (runActs envA wA asA) → Exchange envA envB wA wB asA (asB ++ [b])

end Pyogp.Spec
