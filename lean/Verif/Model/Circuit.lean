import Verif.Model.Deserializer

/-!
# Hosts and circuits

Models `message/circuit.py`.  A `Host` is a mutable object shared between its users, so it is referred to by a
reference into a store of hosts.
-/

namespace Pyogp

/-- The `ip` of a `Host`: `None`, `0` or a string (`circuit.py:21-36`). -/
inductive Ip
  | none | zero | str (s : String)
  deriving DecidableEq, Repr

/-- `circuit.py:21-25` (`Host`). -/
structure Host where
  ip : Ip
  port : Option Nat
  deriving DecidableEq, Repr

/-- Key of the circuit map: `(host.ip, host.port)` (`circuit.py:137,145`). -/
abbrev Addr := Ip × Option Nat

/-- Identity of a `Host` object. -/
abbrev HostRef := Nat

/-- `circuit.py:137`: `(host.ip, host.port)`. -/
def Host.addr (h : Host) : Addr := (h.ip, h.port)

/-- `circuit.py:31-36` (`is_ok`). -/
def Host.isOk (h : Host) : Bool :=
  !(h.ip = .none || h.port = none || h.ip = .zero || h.port = some 0)

/-- `msgtypes.py` (`PackFlags.LL_NONE`). -/
def flagNone : Nat := 0

/-- `circuit.py:47-63` (`Circuit.__init__`). `circuit_code`, `session_id`, `is_blocked`, `allow_timeout` and
`unack_packet_bytes` are never read and omitted.  The values of `unacked_packets` are the messages as they were when
added (they are only read by the resending code, which does not survive its first access, see `resendAll`). -/
structure Circuit where
  host : HostRef
  alive : Bool := true
  trusted : Bool := false
  lastOut : Nat := 0
  lastIn : Int := -1
  acks : List Nat := []
  unacked : Dict Nat Message := []
  unackCount : Int := 0
  finalRetry : Dict Nat Message := []
  finalCount : Int := 0
  deriving DecidableEq, Repr

/-- `circuit.py:65-67` (`next_packet_id`) : the circuit afterwards; the id is its `lastOut`. -/
def Circuit.nextPacketId (c : Circuit) : Circuit := { c with lastOut := c.lastOut + 1 }

/-- `circuit.py:106-109` (`collect_ack`). -/
def Circuit.collectAck (c : Circuit) (pid : Nat) : Circuit := { c with acks := c.acks ++ [pid] }

/-- `circuit.py:111-122` (`add_reliable_packet`). -/
def Circuit.addReliablePacket (c : Circuit) (p : Message) : Circuit :=
  { c with unackCount := c.unackCount + 1, unacked := c.unacked.set p.packetId p }

/-- `circuit.py:96-104` (`ack_reliable_packet`). -/
def Circuit.ackReliablePacket (c : Circuit) (pid : Nat) : Circuit :=
  let c := if c.unacked.has pid then { c with unacked := c.unacked.del pid, unackCount := c.unackCount - 1 } else c
  if c.finalRetry.has pid then { c with finalRetry := c.finalRetry.del pid, finalCount := c.finalCount - 1 } else c

/-- `circuit.py:69-86` (`prepare_packet`): the circuit and the packet object afterwards. -/
def Circuit.preparePacket (c : Circuit) (p : Message) (flag : Nat := flagNone) (retries : Int := 0) : Circuit × Message :=
  let p := { p with sendFlags := flag, retries := retries }
  let c := c.nextPacketId
  let p := { p with packetId := c.lastOut }
  let p :=
    if 0 < c.acks.length ∧ p.name ≠ "PacketAck" then
      c.acks.foldl Message.addAck { p with sendFlags := p.sendFlags ||| flagAck }
    else p
  if flag = flagReliable then (c.addReliablePacket p, p) else (c, p)

/-- `circuit.py:88-94` (`handle_packet`). -/
def Circuit.handlePacket (c : Circuit) (p : Message) : Circuit :=
  let c := p.acks.foldl Circuit.ackReliablePacket c
  if p.reliable then c.collectAck p.packetId else c

/-- `circuit.py:136-140` (`get_circuit`). -/
def getCircuit (m : Dict Addr Circuit) (h : Host) : Option Circuit := m.get? h.addr

/-- `circuit.py:142-146` (`add_circuit`); the new circuit keeps the host object, not its address. -/
def addCircuit (m : Dict Addr Circuit) (r : HostRef) (h : Host) (packetInId : Int) : Dict Addr Circuit × Circuit :=
  let c : Circuit := { host := r, lastIn := packetInId }
  (m.set h.addr c, c)

/-- `circuit.py:148-150` (`remove_circuit_data`). -/
def removeCircuitData (m : Dict Addr Circuit) (h : Host) : Dict Addr Circuit :=
  if m.has h.addr then m.del h.addr else m

/-- `circuit.py:152-157` (`is_circuit_alive`). -/
def isCircuitAlive (m : Dict Addr Circuit) (h : Host) : Bool :=
  match m.get? h.addr with
  | none => false
  | some c => c.alive

end Pyogp
