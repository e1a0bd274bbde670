import Verif.Model.Dispatcher
import Verif.Model.Printing
import Verif.Model.Settings

/-!
# The dispatcher with its log messages

`udpdispatcher.py` again, with the log messages it writes on the way (`udpdispatcher.py:156-166, 217-229`).  Putting a log message together can raise,
and then the rest of the code is not reached.  Names of messages are ASCII `str`, so that of the parts of a log message only the host can
raise (and the hex dump of a datagram that is `None`).  Writing a finished text to the log does not raise.
-/

namespace Pyogp

/-- The settings, and whether the `ip` of a host is a `str` or a `unicode` object. -/
structure LogEnv where
  settings : Settings
  ip : String → Val

/-- The attributes of a host as values. -/
def LogEnv.hostVals (L : LogEnv) (h : Host) : Val × Val :=
  (match h.ip with
    | .none => .none
    | .zero => .int 0
    | .str s => L.ip s,
   match h.port with
    | none => .none
    | some p => .int p)

/-- `' (%s)' % (host)` (`udpdispatcher.py:162, 226`), if hosts are to be logged. -/
def LogEnv.hostString (L : LogEnv) (h : Host) : Py Unit :=
  if L.settings.ENABLE_HOST_LOGGING then
    match hostRepr (L.hostVals h).1 (L.hostVals h).2 with
    | .ok _ => .ok ()
    | .error e => .error e
  else .ok ()

/-- `'<=>' + bytes_to_hex(buf)` (`udpdispatcher.py:158, 222`), if that is to be logged; `None` has no bytes. -/
def LogEnv.hexString (L : LogEnv) (buf : Option Bytes) : Py Unit :=
  if L.settings.ENABLE_BYTES_TO_HEX_LOGGING then
    match buf with
    | some _ => .ok ()
    | none => .error .typeError
  else .ok ()

/-- `udpdispatcher.py:156-166`. -/
def LogEnv.logReceived (L : LogEnv) (h : Host) (dg : Bytes) : Py Unit :=
  if L.settings.ENABLE_UDP_LOGGING then do
    L.hexString (some dg)
    L.hostString h
  else .ok ()

/-- `udpdispatcher.py:217-229`. -/
def LogEnv.logSent (L : LogEnv) (h : Host) (m : Message) (buf : Option Bytes) : Py Unit :=
  if L.settings.ENABLE_UDP_LOGGING then
    if m.name ∈ L.settings.UDP_SPAMMERS ∧ L.settings.DISABLE_SPAMMERS = true then .ok ()
    else do
      L.hexString buf
      L.hostString h
  else .ok ()

/-- `udpdispatcher.py:214-245`, compare `handToSocket`. -/
def handToSocketL (L : LogEnv) (env : DEnv) (st : DState) (h : Host) (m : Message) : Py (Option Bytes) × DState :=
  match serialize env.ser m with
  | .error _ => (sendFailed m, st)
  | .ok buf =>
    match L.logSent h m buf with
    | .error _ => (sendFailed m, st)
    | .ok _ =>
      match buf with
      | none => (sendFailed m, st)
      | some dg =>
        if env.net st.trace h.addr dg then (.ok (some dg), { (st.log (.sent h.addr dg)) with packetsOut := st.packetsOut + 1 })
        else (sendFailed m, st)

/-- `udpdispatcher.py:202-245`, compare `transmit`. -/
def transmitL (L : LogEnv) (env : DEnv) (st : DState) (m : Message) (r : HostRef) (mode : SendMode) : Py (Option Bytes) × DState :=
  let h := st.hosts r
  let (st, c) := findCircuit st r
  let (c, m) := mode.prepare c m
  let st := (st.setCircuit h.addr c).log (.prepared h.addr m)
  let st := match mode with
    | .reliable _ => if c.unackCount ≤ 0 then { st with unackedCircuits := st.unackedCircuits.set r h.addr } else st
    | _ => st
  handToSocketL L env st h m

/-- `udpdispatcher.py:187-245`, compare `sendWith`. -/
def sendWithL (L : LogEnv) (env : DEnv) : Nat → DState → Message → HostRef → SendMode → Py (Option Bytes) × DState
  | 0, st, _, _, _ => (.error .runtimeError, st)
  | n + 1, st, m, r, mode =>
    if !(st.hosts r).isOk then (.ok none, st)
    else if env.handleOutgoing then
      let st := st.log (.outgoing m)
      match (env.handler st.trace m).run (sendWithL L env n) st with
      | (.error e, st) => (.error e, st)
      | (.ok _, st) => transmitL L env st m r mode
    else transmitL L env st m r mode

/-- `udpdispatcher.py:173-185`, compare `send`. -/
def sendL (L : LogEnv) (env : DEnv) (st : DState) (m : Message) (r : HostRef) (mode : SendMode) : Py (Option Bytes) × DState :=
  sendWithL L env env.depth st m r mode

/-- `udpdispatcher.py:115-171`, compare `receiveCheck`. -/
def receiveCheckL (L : LogEnv) (env : DEnv) (st : DState) (r : HostRef) (dg : Bytes) : Py (Option Message) × DState :=
  if 0 < dg.length then
    let h := st.hosts r
    let (st, c) := findCircuit st r
    let st := { st with packetsIn := st.packetsIn + 1 }
    let d := deserialize (env.deser st.trace) st.deser dg
    let st := { (st.log (.received h.addr dg)) with deser := d.2 }
    match d.1 with
    | .error e => (.error e, st)
    | .ok none =>
      match unpackInt env.ser.rt dg .u32 1 (some .big) with
      | .error e => (.error e, st)
      | .ok pid => (.ok none, st.setCircuit h.addr (c.collectAck pid.toNat))
    | .ok (some m) =>
      if c.trusted && !m.trusted then (.ok none, st)
      else
        let st := (st.setCircuit h.addr (c.handlePacket m)).log (.parsed h.addr m)
        match L.logReceived h dg with
        | .error e => (.error e, st)
        | .ok _ =>
          if env.handlePackets then
            let st := st.log (.delivered m)
            match (env.handler st.trace m).run (sendWithL L env env.depth) st with
            | (.error e, st) => (.error e, st)
            | (.ok _, st) => (.ok (some m), st)
          else (.ok (some m), st)
  else (.ok none, st)

/-- `udpdispatcher.py:289-309`, compare `ackLoop`.  The message "Acking packet id" (line 302) cannot raise. -/
def ackLoopL (L : LogEnv) (env : DEnv) (h : HostRef) : List Nat → Nat → Message → DState → Py (Nat × Message) × DState
  | [], n, msg, st => (.ok (n, msg), st)
  | pid :: ids, n, msg, st =>
    let msg := if n = 0 then Message.new "PacketAck" [] else msg
    let msg := addAckBlock msg pid
    let n := n + 1
    if 250 < n then
      match sendL L env st msg h .plain with
      | (.error e, st) => (.error e, st)
      | (.ok _, st) => ackLoopL L env h ids 0 msg st
    else ackLoopL L env h ids n msg st

/-- `udpdispatcher.py:289-315`, compare `ackCircuit`. -/
def ackCircuitL (L : LogEnv) (env : DEnv) (st : DState) (a : Addr) : Py Unit × DState :=
  match st.circuits.get? a with
  | none => (.ok (), st)
  | some c =>
    match ackLoopL L env c.host c.acks 0 (Message.new "PacketAck" []) st with
    | (.error e, st) => (.error e, st)
    | (.ok (n, msg), st) =>
      let r : Py (Option Bytes) × DState := if 0 < n then sendL L env st msg c.host .plain else (.ok none, st)
      match r with
      | (.error e, st) => (.error e, st)
      | (.ok _, st) =>
        match st.circuits.get? a with
        | none => (.ok (), st)
        | some c => (.ok (), st.setCircuit a { c with acks := [] })

/-- `udpdispatcher.py:283-315`, compare `sendAcks`. -/
def sendAcksL (L : LogEnv) (env : DEnv) : List Addr → DState → Py Unit × DState
  | [], st => (.ok (), st)
  | a :: as, st =>
    match ackCircuitL L env st a with
    | (.error e, st) => (.error e, st)
    | (.ok _, st) => sendAcksL L env as st

/-- `udpdispatcher.py:247-254`, compare `processAcks`. -/
def processAcksL (L : LogEnv) (env : DEnv) (st : DState) (order : List Addr) : Py Unit × DState :=
  match resendAll st with
  | .error e => (.error e, st)
  | .ok _ => sendAcksL L env order st

/-- One operation, compare `step`. -/
def stepL (L : LogEnv) (env : DEnv) (st : DState) : Op → DState
  | .send m h mode => (sendL L env st m h mode).2
  | .recv h dg => (receiveCheckL L env st h dg).2
  | .processAcks order => (processAcksL L env st order).2
  | op => step env st op

/-- A history of operations, compare `runOps`. -/
def runOpsL (L : LogEnv) (env : DEnv) (st : DState) (ops : List Op) : DState := ops.foldl (stepL L env) st

end Pyogp
