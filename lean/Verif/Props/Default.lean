import Verif.Props.Templates
import Verif.Props.EndToEnd
import Verif.Props.System
import Verif.Props.Reading

/-!
# The default configuration

The theorems about complete exchanges, for dispatchers configured as the library configures them: with the dictionary of the embedded
`message_template.msg` and with `message.xml` (`message/udpdispatcher.py:57-85`, `message/template_dict.py:35-52`, `message/message_dot_xml.py`).
-/

namespace Pyogp
open Spec

/-- Both ends of a connection run on the same runtime with the default configuration (Python 2.6: on 2.7 the template does not load, C48). -/
structure DefaultEnds (senv : SerEnv) (renv : DeserEnv) : Prop where
  runtime : renv.rt = senv.rt
  sender : Embedded.Dictionary senv.dict
  receiver : Embedded.Dictionary renv.dict
  senderXml : senv.xml = Embedded.messageXml
  receiverXml : renv.xml = Embedded.messageXml

/-- A message of the embedded template that `message.xml` leaves on UDP. -/
def OnUdp (t : Template) : Prop :=
  t ∈ Embedded.all_templates ∧ (Embedded.messageXml.get? t.name = none ∨ Embedded.messageXml.get? t.name = some (some "template"))

theorem DefaultEnds.connected {senv : SerEnv} {renv : DeserEnv} (h : DefaultEnds senv renv) {t : Template} (ht : OnUdp t)
    (hh : ∃ names, renv.handled? = some names ∧ (t.name ∈ names ∨ renv.deferred = false)) :
    Connected senv renv (identified t) ∧ WFTemplate (identified t) :=
  default_connected senv renv h.runtime h.sender h.receiver h.senderXml h.receiverXml t ht.1 ht.2 hh

/-- **C88 for the default configuration.** -/
theorem C88_default (env : DeserEnv) (hd : Embedded.Dictionary env.dict) (hx : env.xml = Embedded.messageXml)
    (hh : ∃ names, env.handled? = some names) (st : DeserState) (dg : Bytes) (x : Frame) (h : Framed dg x) (r : Py (Option Message)) :
    (deserialize env st dg).1 = r ↔ Result env x r :=
  C88_outcome env (default_configured env hd hx hh) st dg x h r

/-- **C71 for the default configuration.** Every message that fills a UDP message of the embedded template arrives when it is sent at a moment
its sender owes the destination no acknowledgement. -/
theorem C71_default (envA : DEnv) (hb : envA.handleOutgoing = false) (hdp : 0 < envA.depth) (hn : ∀ tr a dg, envA.net tr a dg = true)
    (hostsA : HostRef → Host) (opsA : List Op) (rB : HostRef) (mode : SendMode) (t : Template) (m : Message)
    (envB : DEnv) (hh : envB.handlePackets = true) (stB : DState) (rA : HostRef) (hdef : DefaultEnds envA.ser (envB.deser stB.trace)) (ht : OnUdp t)
    (hwant : ∃ names, (envB.deser stB.trace).handled? = some names ∧ (t.name ∈ names ∨ (envB.deser stB.trace).deferred = false)) :
    let stA := runOps envA (DState.init hostsA) opsA
    let id := (outIds (circuitHistory (stA.hosts rB).addr stA.trace)).length + 1
    (stA.hosts rB).isOk = true → pending stA (stA.hosts rB).addr = [] → id < 2 ^ 31 →
    (∀ c, stB.circuits.get? (stB.hosts rA).addr = some c → c.trusted = false) → Fills envA.ser.rt (identified t) m →
    ∃ dg m', (send envA stA m rB mode).1 = .ok (some dg) ∧
      sentDatagrams (send envA stA m rB mode).2.trace = sentDatagrams stA.trace ++ [((stA.hosts rB).addr, dg)] ∧
      SameContent envA.ser.rt (identified t) m m' ∧ m'.packetId = id ∧ m'.reliable = mode.isReliable ∧ m'.acks = [] ∧
      (∃ rest, (receiveCheck envB stB rA dg).2.trace =
          stB.trace ++ [.received (stB.hosts rA).addr dg, .parsed (stB.hosts rA).addr m', .delivered m'] ++ rest ∧ deliveredCount rest = 0) ∧
      ∀ a, pending (receiveCheck envB stB rA dg).2 a =
        pending stB a ++ (if a = (stB.hosts rA).addr ∧ mode.isReliable = true then [id] else []) := by
  intro stA id h1 h2 h3 h4 h5
  obtain ⟨hc, hw⟩ := hdef.connected ht hwant
  exact C71_arrives envA hb hdp hn hostsA opsA rB mode (identified t) m envB hh stB rA h1 h2 h3 h4 hc hw h5

theorem Embedded.t1_mem : Embedded.t1 ∈ Embedded.all_templates := by
  have h : Embedded.all_templates[1]? = some Embedded.t1 := by kernel_rfl
  exact List.mem_of_getElem? h

theorem Embedded.t1_name : Embedded.t1.name = "PacketAck" := by kernel_rfl

/-- The embedded `PacketAck` is what the dispatcher writes its acknowledgements for. -/
theorem Embedded.packetAck_is : AckTemplate (identified Embedded.t1) where
  name := Embedded.t1_name
  blocks := ⟨0, 4, by kernel_rfl⟩
  wf := checked_wf (Embedded.all_checked _ Embedded.t1_mem)

theorem Embedded.packetAck_onUdp : OnUdp Embedded.t1 :=
  ⟨Embedded.t1_mem, .inr (by rw [Embedded.t1_name]; rfl)⟩

/-- **C71, acknowledgements, for the default configuration.** -/
theorem C71_acks_default (env : DEnv) (hb : env.handleOutgoing = false) (hd : 0 < env.depth) (hn : ∀ tr a dg, env.net tr a dg = true)
    (hosts : HostRef → Host) (ops : List Op)
    (order : List Addr) (hp : order.Perm (runOps env (DState.init hosts) ops).circuits.keys)
    (hv : HostsValid (runOps env (DState.init hosts) ops)) (renv : DeserEnv) (hdef : DefaultEnds env.ser renv)
    (hwant : ∃ names, renv.handled? = some names ∧ ("PacketAck" ∈ names ∨ renv.deferred = false)) :
    let st := runOps env (DState.init hosts) ops
    (preparedMsgs (processAcks env st order).2.trace).length < 2 ^ 31 →
    (processAcks env st order).1 = .ok () ∧
    ∃ (new : List Ev) (parts : Addr → List (List Nat)), (processAcks env st order).2.trace = st.trace ++ new ∧
      (∀ a ∈ order, (parts a).flatten = pending st a ∧ ∀ p ∈ parts a, p ≠ []) ∧
      List.Forall₂ (fun (d : Addr × List Nat) (x : Addr × Bytes) => x.1 = ackDest st d.1 ∧
          ∀ dst : DeserState, ∃ m', (deserialize renv dst x.2).1 = .ok (some m') ∧ ListsIds m' d.2)
        (order.flatMap fun a => (parts a).map fun p => (a, p)) (sentDatagrams new) :=
  C71_acks_arrive env hb hd hn hosts ops order hp hv renv (identified Embedded.t1) Embedded.packetAck_is
    (hdef.connected Embedded.packetAck_onUdp (by rw [Embedded.t1_name]; exact hwant)).1

/-- Two dispatchers with the default configuration. -/
theorem default_readable {envA envB : DEnv} {a : DState} (hdef : ∀ tr, DefaultEnds envA.ser (envB.deser tr))
    (few : (preparedMsgs a.trace).length < 2 ^ 31) (noAcks : ∀ x ∈ preparedMsgs a.trace, x.2.sendFlags &&& 0x10 = 0)
    (hk : ∀ x ∈ preparedMsgs a.trace, ∃ t, OnUdp t ∧ Fills envA.ser.rt (identified t) x.2) : Readable envA envB a := by
  refine ⟨few, noAcks, ?_⟩
  intro x hx
  obtain ⟨t, ht, hf⟩ := hk x hx
  have key : ∀ tr, Connected envA.ser (envB.deser tr).eager (identified t) ∧ WFTemplate (identified t) := fun tr => by
    have h := hdef tr
    exact DefaultEnds.connected (renv := (envB.deser tr).eager) ⟨h.runtime, h.sender, h.receiver, h.senderXml, h.receiverXml⟩ ht
      ⟨[], rfl, .inr rfl⟩
  exact ⟨identified t, (key []).2, hf, fun tr => (key tr).1⟩

/-- **C78 for the default configuration.** Whatever the network does, every message B's subscribers get is one of A's, with its content. -/
theorem C78_default {envA envB : DEnv} {hostsA hostsB : HostRef → Host} {a b : DState} (h : Together envA envB hostsA hostsB a b)
    (hdef : ∀ tr, DefaultEnds envA.ser (envB.deser tr)) (few : (preparedMsgs a.trace).length < 2 ^ 31)
    (noAcks : ∀ x ∈ preparedMsgs a.trace, x.2.sendFlags &&& 0x10 = 0)
    (hk : ∀ x ∈ preparedMsgs a.trace, ∃ t, OnUdp t ∧ Fills envA.ser.rt (identified t) x.2) :
    ∃ sub, sub.Sublist (receivedDatagrams b.trace) ∧
      List.Forall₂ (fun dg m' => ∃ x ∈ preparedMsgs a.trace, serialize envA.ser x.2 = .ok (some dg) ∧ ReadAs envA.ser x.2 m') sub (deliveredMsgs b.trace) :=
  C78_genuine h (default_readable hdef few noAcks hk)

/-- **C78, over a perfect network, for the default configuration.** -/
theorem C78_in_order_default {envA envB : DEnv} {hostsA hostsB : HostRef → Host} {a b : DState} (h : Together envA envB hostsA hostsB a b)
    (hdef : ∀ tr, DefaultEnds envA.ser (envB.deser tr)) (few : (preparedMsgs a.trace).length < 2 ^ 31)
    (noAcks : ∀ x ∈ preparedMsgs a.trace, x.2.sendFlags &&& 0x10 = 0)
    (hk : ∀ x ∈ preparedMsgs a.trace, ∃ t, OnUdp t ∧ Fills envA.ser.rt (identified t) x.2)
    (hall : HandlesAll envB a) (hh : envB.handlePackets = true) (hn : ∀ tr x dg, envA.net tr x dg = true) (addrB : Addr)
    (hp : receivedDatagrams b.trace = ((sentDatagrams a.trace).filter (·.1 = addrB)).map (·.2)) :
    List.Forall₂ (ReadAs envA.ser) (((preparedMsgs a.trace).filter (·.1 = addrB)).map (·.2)) (deliveredMsgs b.trace) :=
  C78_in_order h (default_readable hdef few noAcks hk) hall hh hn addrB hp

/-! ## Non-vacuity -/

/-- Two dispatchers with the default configuration exist, and `PacketAck` is one of the messages they can exchange. -/
theorem default_ends_exist (rt : Runtime) (hv : rt.ver = .v26) (names : List String) :
    ∃ (senv : SerEnv) (renv : DeserEnv), DefaultEnds senv renv ∧ renv.handled? = some names ∧ OnUdp Embedded.t1 ∧
      Fills senv.rt (identified Embedded.t1) { name := "PacketAck", blocks := [("Packets", [packetsBlock 7, packetsBlock 9])], packetId := 1 } := by
  obtain ⟨d, hd, _⟩ := Embedded.dictionary_exists rt hv
  refine ⟨⟨rt, d, Embedded.messageXml⟩, { rt := rt, dict := d, xml := Embedded.messageXml, handled? := some names, deferred := true },
    ⟨rfl, hd, hd, rfl, rfl⟩, rfl, Embedded.packetAck_onUdp, ?_⟩
  exact ack_fills rt Embedded.packetAck_is (ids := [7, 9]) ⟨rfl, rfl⟩ (by decide) (by decide) (by decide)

end Pyogp
