import Verif.Props.Default
import Verif.Props.Delivery
import Verif.Props.Network

/-!
# The default configuration, continued: managers that use the embedded template

C83, C84, C94 and C95 for programs configured as the library configures them (`message_manager.py:41-116`, `message/udpdispatcher.py:57-85`): nothing is left to assume about templates.
-/

namespace Pyogp
open Spec

/-- A program that sends only through the queue of its manager, with the default configuration on both ends: its host is valid, its subscribers return, its socket takes
every datagram, it passes packets to its message handler; and what it enqueues are messages that fill UDP messages of the embedded template (not `PacketAck`) for which
the other program has a handler. -/
structure DefaultManager (env peer : CEnv) (hosts : HostRef → Host) (es : List QEntry) : Prop where
  calm : Calm env hosts
  handles : env.m.disp.handlePackets = true
  ends : ∀ tr, DefaultEnds env.m.disp.ser (peer.m.disp.deser tr)
  messages : ∀ e ∈ es, e.msg.name ≠ "PacketAck" ∧ ∃ t, OnUdp t ∧ Fills env.m.disp.ser.rt (identified t) e.msg ∧
    ∀ tr, ∃ names, (peer.m.disp.deser tr).handled? = some names ∧ (t.name ∈ names ∨ (peer.m.disp.deser tr).deferred = false)

/-- The embedded `PacketAck` is known on both ends. -/
theorem default_acks {env peer : CEnv} (h : ∀ tr, DefaultEnds env.m.disp.ser (peer.m.disp.deser tr)) :
    ∃ t, AckTemplate t ∧ ∀ tr, Connected env.m.disp.ser (peer.m.disp.deser tr).eager t := by
  refine ⟨identified Embedded.t1, Embedded.packetAck_is, fun tr => ?_⟩
  have h := h tr
  exact (DefaultEnds.connected (renv := (peer.m.disp.deser tr).eager) ⟨h.runtime, h.sender, h.receiver, h.senderXml, h.receiverXml⟩ Embedded.packetAck_onUdp
    ⟨[], rfl, .inr rfl⟩).1

theorem DefaultManager.understood {env peer : CEnv} {hosts : HostRef → Host} {es : List QEntry} (h : DefaultManager env peer hosts es) :
    Understood env peer es := by
  refine ⟨fun e he => ?_, default_acks h.ends⟩
  obtain ⟨hn, t, ht, hf, hw⟩ := h.messages e he
  exact ⟨hn, identified t, ((h.ends []).connected ht (hw [])).2, hf, fun tr => ((h.ends tr).connected ht (hw tr)).1⟩

/-- **C83 for the default configuration.** If the network brought B exactly what A sent there, in order, A's queue is empty and nothing was enqueued urgently, B's
subscribers got (besides acknowledgements) exactly what A's program enqueued, once, in order and with its content. -/
theorem C83_default {envA envB : CEnv} {hostsA hostsB : HostRef → Host} {eqA eqB : Bool} {asA asB : List Act}
    (hA : DefaultManager envA envB hostsA (enqueuedIn asA)) (hB : envB.m.disp.handlePackets = true)
    (hp : Pair envA envB (World.init hostsA eqA) (World.init hostsB eqB) asA asB) :
    let a := (runActs envA (World.init hostsA eqA) asA).m
    let b := (runActs envB (World.init hostsB eqB) asB).m
    (preparedMsgs a.disp.trace).length < 2 ^ 31 → FitsBuffer a.disp.trace → FitsBuffer b.disp.trace →
    receivedDatagrams b.disp.trace = ((sentDatagrams a.disp.trace).filter (·.1 = (hostsA envA.m.host).addr)).map (·.2) →
    a.queue = [] → (∀ e ∈ enqueuedIn asA, e.now = false) →
    List.Forall₂ (Received envA.m.disp.ser) (enqueuedIn asA) ((deliveredMsgs b.disp.trace).filter (fun m => m.name ≠ "PacketAck")) :=
  C83_everything_arrives hA.calm.queue hp hA.calm.host hA.understood hB hA.calm.net

/-- **C84 for the default configuration.** Two programs as the library configures them, nobody subscribed to `PacketAck`, with any traffic: once one has acknowledged anything, then
whenever all datagrams have arrived one of them has something to acknowledge. -/
theorem C84_default {envA envB : CEnv} {hostsA hostsB : HostRef → Host} {eqA eqB : Bool} {asA asB : List Act}
    (hA : ThroughQueue envA) (hB : ThroughQueue envB) (iA : IgnoresAcks envA) (iB : IgnoresAcks envB)
    (okA : ∀ r, r ≠ envA.m.sender → (hostsA r).isOk = true) (okB : ∀ r, r ≠ envB.m.sender → (hostsB r).isOk = true)
    (nA : ∀ tr x dg, envA.m.disp.net tr x dg = true) (nB : ∀ tr x dg, envB.m.disp.net tr x dg = true)
    (dA : ∀ tr, DefaultEnds envA.m.disp.ser (envB.m.disp.deser tr)) (dB : ∀ tr, DefaultEnds envB.m.disp.ser (envA.m.disp.deser tr))
    (eA : ∀ e ∈ enqueuedIn asA, e.msg.name ≠ "PacketAck") (eB : ∀ e ∈ enqueuedIn asB, e.msg.name ≠ "PacketAck")
    (h : Exchange envA envB (World.init hostsA eqA) (World.init hostsB eqB) asA asB) :
    let a := runActs envA (World.init hostsA eqA) asA
    let b := runActs envB (World.init hostsB eqB) asB
    FitsBuffer a.m.disp.trace → FitsBuffer b.m.disp.trace → (preparedMsgs a.m.disp.trace).length < 2 ^ 31 → (preparedMsgs b.m.disp.trace).length < 2 ^ 31 →
    (∃ x ∈ preparedMsgs a.m.disp.trace ++ preparedMsgs b.m.disp.trace, x.2.name = "PacketAck") →
    AllArrived a b → AllArrived b a → hasUnacked a.m.disp = true ∨ hasUnacked b.m.disp = true :=
  C84_never_at_rest ⟨hA, iA, okA, nA, default_acks dA, eA⟩ ⟨hB, iB, okB, nB, default_acks dB, eB⟩ h

/-- **C94 for the default configuration.** Any number of programs with the default configuration on one network: what `i` accepts on the circuit of `j`'s address are, in
order, some of the datagrams received from there, each read as a packet `j` prepared, with its content, id and reliable flag. -/
theorem C94_default {ι : Type} [DecidableEq ι] {node : ι → Node} {s : ι → DState} (h : Among node s) (i j : ι) (h1 : Own1 node j)
    (hdef : ∀ tr, DefaultEnds (node j).env.ser ((node i).env.deser tr)) (few : (preparedMsgs (s j).trace).length < 2 ^ 31)
    (noAcks : ∀ x ∈ preparedMsgs (s j).trace, x.2.sendFlags &&& 0x10 = 0)
    (hk : ∀ x ∈ preparedMsgs (s j).trace, ∃ t, OnUdp t ∧ Fills (node j).env.ser.rt (identified t) x.2) :
    ∃ sub, sub.Sublist (receivedFrom (node j).addr (s i).trace) ∧
      List.Forall₂ (fun dg m' => ∃ x ∈ preparedMsgs (s j).trace, serialize (node j).env.ser x.2 = .ok (some dg) ∧ ReadAs (node j).env.ser x.2 m') sub
        (parsedFrom (node j).addr (s i).trace) :=
  C94_attributed h i j h1 (default_readable hdef few noAcks hk)

/-- **C95, no exception, for the default configuration.** Whatever the network does with the datagrams (but make some up), no UDP loop of two such programs is ever left by an
exception. -/
theorem C95_no_exception_default {envA envB : CEnv} {hostsA hostsB : HostRef → Host} {eqA eqB : Bool} {asA asB : List Act}
    (hA : DefaultManager envA envB hostsA (enqueuedIn asA)) (hB : DefaultManager envB envA hostsB (enqueuedIn asB))
    (hp : Pair envA envB (World.init hostsA eqA) (World.init hostsB eqB) asA asB) :
    (preparedMsgs (runActs envA (World.init hostsA eqA) asA).m.disp.trace).length < 2 ^ 31 →
    (preparedMsgs (runActs envB (World.init hostsB eqB) asB).m.disp.trace).length < 2 ^ 31 →
    FitsBuffer (runActs envA (World.init hostsA eqA) asA).m.disp.trace → FitsBuffer (runActs envB (World.init hostsB eqB) asB).m.disp.trace →
    ∀ i, ¬ Raised (runActs envA (World.init hostsA eqA) asA) i ∧ ¬ Raised (runActs envB (World.init hostsB eqB) asB) i :=
  C95_no_exception hA.calm hB.calm hp hA.understood hB.understood

/-- **C95, everything is delivered, for the default configuration.** -/
theorem C95_default {envA envB : CEnv} {hostsA hostsB : HostRef → Host} {eqA eqB : Bool} {ip : String} {port : Nat} (s : JointSchedule) (i j n0 : Nat)
    (hA : ∀ n, DefaultManager envA envB hostsA (enqueuedIn (movesOf true (s.first n))))
    (hB : ∀ n, DefaultManager envB envA hostsB (enqueuedIn (movesOf false (s.first n)))) :
    let st := fun n => together envA envB (World.init hostsA eqA, World.init hostsB eqB) (s.first n)
    (∀ n, Lossless envA envB ip port (hostsA envA.m.host).addr (World.init hostsA eqA, World.init hostsB eqB) (s.first n)) →
    (∀ n, (preparedMsgs (st n).1.m.disp.trace).length < 2 ^ 31 ∧ (preparedMsgs (st n).2.m.disp.trace).length < 2 ^ 31) →
    (∀ n, FitsBuffer (st n).1.m.disp.trace ∧ FitsBuffer (st n).2.m.disp.trace) →
    (st n0).1.running = true → Running (st n0).1 i → (st n0).2.running = true → Running (st n0).2 j →
    (∀ n, n0 ≤ n → (s n).2 ≠ .stop) → (∀ n e, n0 ≤ n → s n = (true, .enqueue e) → e.now = false) → (∀ n e, n0 ≤ n → s n ≠ (false, .enqueue e)) →
    (∀ n, ∃ m, n ≤ m ∧ ∃ input order, s m = (true, .udp i input order)) → (∀ n, ∃ m, n ≤ m ∧ ∃ input order, s m = (false, .udp j input order)) →
    ∀ n, ∃ m k, ((st n).1.m.calls ++ (st n).1.m.queue).Subperm ((st m).1.m.calls.take k) ∧
      List.Forall₂ (Received envA.m.disp.ser) ((st m).1.m.calls.take k) ((deliveredMsgs (st m).2.m.disp.trace).filter (fun m => m.name ≠ "PacketAck")) := by
  intro st hl hfew hfit r1 r2 r3 r4 h1 h2 h3 h4 h5
  exact C95_everything_is_delivered (hA 0).calm (hB 0).calm (hB 0).handles s i j n0 hl (fun n => ⟨(hA n).understood, (hB n).understood⟩) hfew hfit r1 r2 r3 r4 h1 h2 h3 h4 h5

/-! ## Non-vacuity -/

/-- A message of the embedded template. -/
def pingReply : Message := Message.new "CompletePingCheck" [.one (Block.mk' "PingID" [("PingID", .num (.int 7))])]

theorem Embedded.t5_onUdp : OnUdp Embedded.t5 := by
  have h : Embedded.all_templates[5]? = some Embedded.t5 := by kernel_rfl
  refine ⟨List.mem_of_getElem? h, .inr ?_⟩
  rw [show Embedded.t5.name = "CompletePingCheck" from rfl]
  rfl

theorem pingReply_fills (rt : Runtime) : Fills rt (identified Embedded.t5) pingReply := by
  refine ⟨rfl, ?_, .inr ⟨_, List.mem_cons_self, _, rfl, by decide⟩⟩
  intro tb htb
  simp only [identified, Embedded.t5, List.mem_cons, List.not_mem_nil, or_false] at htb
  subst htb
  refine ⟨_, rfl, rfl, ?_⟩
  intro b hb v hv
  simp only [List.mem_cons, List.not_mem_nil, or_false] at hb hv
  subst hb hv
  exact ⟨_, _, rfl, rfl⟩

/-- A manager with the default configuration and a subscriber of `CompletePingCheck`. -/
def defaultCEnv (rt : Runtime) (d : TemplateDict) : CEnv :=
  { demoCEnv with m := { demoManager with disp := { dispEnv with
      ser := ⟨rt, d, Embedded.messageXml⟩
      deser := fun _ => ⟨rt, d, Embedded.messageXml, some ["CompletePingCheck"], true⟩ } } }

/-- Two such managers are `DefaultManager`s, whatever they enqueue copies of the message above. -/
example (rt : Runtime) (hv : rt.ver = .v26) : ∃ env : CEnv, ∀ es : List QEntry, (∀ e ∈ es, e.msg = pingReply) →
    DefaultManager env env dispHosts es ∧ IgnoresAcks env := by
  obtain ⟨d, hd, _⟩ := Embedded.dictionary_exists rt hv
  refine ⟨defaultCEnv rt d, fun es hes => ⟨⟨⟨⟨rfl, show 0 < dispEnv.depth by decide, show demoManager.host ≠ demoManager.sender by decide, fun _ _ => trivial⟩, show (dispHosts demoManager.host).isOk = true by decide, fun _ _ => rfl, fun _ => by simp [defaultCEnv], fun _ _ _ => rfl⟩,
    rfl, fun _ => ⟨rfl, hd, hd, rfl, rfl⟩, ?_⟩, fun _ => ⟨rfl, _, rfl, by decide⟩⟩⟩
  intro e he
  rw [hes e he]
  exact ⟨by rw [show pingReply.name = "CompletePingCheck" from rfl]; decide, Embedded.t5, Embedded.t5_onUdp, pingReply_fills rt, fun _ => ⟨_, rfl, .inl (by decide)⟩⟩

end Pyogp
