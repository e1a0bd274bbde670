import Verif.Spec.Logging
import Verif.Proofs.Logging
import Verif.Props.Circuit

namespace Pyogp
open Spec

/-! ## C103

What the log settings change: nothing, as long as the hosts can be shown. -/

theorem showable_quiet {L : LogEnv} {h : Host} (hs : HostShown L.ip h) : LogOk L h := by
  left
  unfold LogEnv.hostString
  split
  · have := (C102_host (L.hostVals h).1 (L.hostVals h).2).1 hs
    rw [this]
  · rfl

theorem off_quiet {L : LogEnv} (ho : L.settings.ENABLE_UDP_LOGGING = false ∨ L.settings.ENABLE_HOST_LOGGING = false) (h : Host) : LogOk L h := by
  rcases ho with ho | ho
  · exact .inr ho
  · left
    unfold LogEnv.hostString
    rw [if_neg (by rw [ho]; decide)]

theorem handlersKeep_mutates {good : Host → Prop} {L : LogEnv} (hg : ∀ h, good h → LogOk L h) :
    ∀ p : Prog, HandlersKeep good p → p.Mutates (fun _ v => LogOk L v)
  | .done, _ => trivial
  | .raise _, _ => trivial
  | .send _ _ _ k, h => fun x => handlersKeep_mutates hg (k x) (h x)
  | .setHost _ _ k, h => ⟨hg _ h.1, handlersKeep_mutates hg k h.2⟩

theorem handlersKeep_any {good : Host → Prop} (hg : ∀ h, good h) : ∀ p : Prog, HandlersKeep good p
  | .done => trivial
  | .raise _ => trivial
  | .send _ _ _ k => fun x => handlersKeep_any hg (k x)
  | .setHost _ v k => ⟨hg v, handlersKeep_any hg k⟩

theorem onlyHosts_any {good : Host → Prop} (hg : ∀ h, good h) (env : DEnv) (st : DState) (ops : List Op) : OnlyHosts good env st ops :=
  ⟨fun _ => hg _, fun _ v _ => hg v, fun _ _ => handlersKeep_any hg _⟩

theorem runOpsL_quiet {L : LogEnv} {good : Host → Prop} (hg : ∀ h, good h → LogOk L h) {env : DEnv} {st : DState} {ops : List Op}
    (h : OnlyHosts good env st ops) : runOpsL L env st ops = runOps env st ops ∧ AllLogOk L (runOps env st ops) :=
  runOpsL_eq (fun tr m => handlersKeep_mutates hg _ (h.handlers tr m)) ops
    (fun _ hop r v he => hg v (h.set r v (he ▸ hop))) st (fun r => hg _ (h.start r))

/-- **C103.** Whatever is logged, a history of operations with hosts that can be shown leads to the same state: the same datagrams, the same
deliveries, the same acknowledgements. -/
theorem C103_history (L : LogEnv) (env : DEnv) (st : DState) (ops : List Op) (h : OnlyHosts (HostShown L.ip) env st ops) :
    runOpsL L env st ops = runOps env st ops :=
  (runOpsL_quiet (fun _ => showable_quiet) h).1

/-- Changing the settings changes nothing. -/
theorem C103_settings (ip : String → Val) (s s' : Settings) (env : DEnv) (st : DState) (ops : List Op)
    (h : OnlyHosts (HostShown ip) env st ops) : runOpsL ⟨s, ip⟩ env st ops = runOpsL ⟨s', ip⟩ env st ops := by
  rw [C103_history ⟨s, ip⟩ env st ops h, C103_history ⟨s', ip⟩ env st ops h]

/-- Nor do the calls after such a history return or raise anything else. -/
theorem C103_results (L : LogEnv) (env : DEnv) (st : DState) (ops : List Op) (h : OnlyHosts (HostShown L.ip) env st ops) :
    (∀ m r mode, sendL L env (runOpsL L env st ops) m r mode = send env (runOps env st ops) m r mode) ∧
    (∀ r dg, receiveCheckL L env (runOpsL L env st ops) r dg = receiveCheck env (runOps env st ops) r dg) ∧
    (∀ order, processAcksL L env (runOpsL L env st ops) order = processAcks env (runOps env st ops) order) := by
  obtain ⟨e, hq⟩ := runOpsL_quiet (fun _ => showable_quiet) h
  have hm : HandlerOk env (fun _ v => LogOk L v) := fun tr m => handlersKeep_mutates (fun _ => showable_quiet) _ (h.handlers tr m)
  rw [e]
  exact ⟨fun m r mode => sendWithL_eq hm _ _ m r mode hq, fun r dg => receiveCheckL_eq hm _ r dg hq,
    fun order => processAcksL_eq hm _ order hq⟩

/-- Hosts as the socket gives them, whose `ip` is a `str`, can be shown. -/
theorem C103_str_hosts (ip : String → Val) (hip : ∀ s, ∃ b, ip s = .bytes b) (h : Host) : HostShown ip h := by
  left
  intro v hv
  simp only [List.mem_cons, List.not_mem_nil, or_false] at hv
  rcases hv with rfl | rfl
  · cases h.ip with
    | none => exact id
    | zero => exact id
    | str s => obtain ⟨b, hb⟩ := hip s; simp only [hb]; exact id
  · cases h.port <;> exact id

/-- So if no `ip` is a `unicode` object, the settings never matter. -/
theorem C103_default (ip : String → Val) (hip : ∀ s, ∃ b, ip s = .bytes b) (s : Settings) (env : DEnv) (st : DState) (ops : List Op) :
    runOpsL ⟨s, ip⟩ env st ops = runOps env st ops :=
  C103_history ⟨s, ip⟩ env st ops (onlyHosts_any (C103_str_hosts ip hip) env st ops)

/-- Without log messages about UDP, or without hosts in them, any hosts will do; quiet settings are such settings. -/
theorem C103_off (L : LogEnv) (env : DEnv) (st : DState) (ops : List Op) :
    (L.settings.ENABLE_UDP_LOGGING = false ∨ L.settings.ENABLE_HOST_LOGGING = false → runOpsL L env st ops = runOps env st ops) ∧
    (∀ spammy logTests, (Settings.new true spammy logTests).ENABLE_UDP_LOGGING = false) :=
  ⟨fun ho => (runOpsL_quiet (good := fun _ => True) (fun h _ => off_quiet ho h) (onlyHosts_any (fun _ => trivial) env st ops)).1,
   fun spammy logTests => by cases spammy <;> rfl⟩

/-- The settings of the first case are met by histories with reliable packets, answers and acknowledgements. -/
example : OnlyHosts (HostShown (fun s => .uni s.toList)) dispEnv (DState.init dispHosts) (demoOps ++ [.processAcks [dispAddr 1, dispAddr 0]]) where
  start r := by
    right
    intro v hv
    simp only [DState.init, dispHosts, List.mem_cons, List.not_mem_nil, or_false] at hv
    rcases hv with rfl | rfl
    · intro c hc
      have : c ∈ ['s', 'i', 'm'] := hc
      simp only [List.mem_cons, List.not_mem_nil, or_false] at this
      rcases this with rfl | rfl | rfl <;> decide
    · trivial
  set r v h := by simp [demoOps] at h
  handlers _ _ := trivial

theorem unshowable_hostString {L : LogEnv} (hh : L.settings.ENABLE_HOST_LOGGING = true) {h : Host} (hs : ¬ HostShown L.ip h) :
    L.hostString h = .error .valueError := by
  unfold LogEnv.hostString
  rw [if_pos hh, (C102_host (L.hostVals h).1 (L.hostVals h).2).2 hs]

theorem hexString_some (L : LogEnv) (dg : Bytes) : L.hexString (some dg) = .ok () := by
  unfold LogEnv.hexString
  split <;> rfl

/-- **C103, the exception.** If UDP messages and hosts are logged, as by default, nothing is sent to a host that cannot be shown, and no error is
raised (if the message itself can be shown); but the packet takes a number.  (Unless the name of the message is one that is not logged.) -/
theorem C103_unshowable_send (L : LogEnv) (hu : L.settings.ENABLE_UDP_LOGGING = true) (hh : L.settings.ENABLE_HOST_LOGGING = true)
    (env : DEnv) (ho : env.handleOutgoing = false) (hd : 0 < env.depth) (st : DState) (m : Message) (r : HostRef) (mode : SendMode)
    (hok : (st.hosts r).isOk = true) (hs : ¬ HostShown L.ip (st.hosts r))
    (hn : ¬ (m.name ∈ L.settings.UDP_SPAMMERS ∧ L.settings.DISABLE_SPAMMERS = true)) :
    (sendL L env st m r mode).2.packetsOut = st.packetsOut ∧
    ∃ m', (sendL L env st m r mode).2.trace = st.trace ++ [.prepared (st.hosts r).addr m'] ∧
      (sendL L env st m r mode).1 = (match m'.render with | .ok _ => .ok none | .error e => .error e) := by
  obtain ⟨d, hd⟩ : ∃ d, env.depth = d + 1 := ⟨env.depth - 1, by omega⟩
  have e1 : sendL L env st m r mode =
      handToSocketL L env (preparedState st m r mode) (st.hosts r) (mode.prepare (findCircuit st r).2 m).2 := by
    unfold sendL
    rw [hd, sendWithL, hok, ho]
    rfl
  have e2 : (mode.prepare (findCircuit st r).2 m).2.name = m.name := by rw [prepare_eq]; exact preparedMsg_name _ _ _ _
  have e3 : handToSocketL L env (preparedState st m r mode) (st.hosts r) (mode.prepare (findCircuit st r).2 m).2 =
      (sendFailed (mode.prepare (findCircuit st r).2 m).2, preparedState st m r mode) := by
    unfold handToSocketL
    split
    · rfl
    · rename_i buf _
      have : ∃ e, L.logSent (st.hosts r) (mode.prepare (findCircuit st r).2 m).2 buf = .error e := by
        unfold LogEnv.logSent
        rw [if_pos hu, e2, if_neg hn, unshowable_hostString hh hs]
        cases L.hexString buf with
        | ok u => exact ⟨_, rfl⟩
        | error e => exact ⟨_, rfl⟩
      obtain ⟨e, he⟩ := this
      simp only [he]
  rw [e1, e3]
  have hf := preparedState_fields st m r mode
  refine ⟨hf.2.2.2.1, _, hf.2.1, ?_⟩
  simp only [sendFailed]
  cases (mode.prepare (findCircuit st r).2 m).2.render <;> rfl

/-- A datagram from a host that cannot be shown: if it would be parsed and accepted, it is, and is recorded (to be acknowledged), but the call raises
`ValueError` before any subscriber is told; otherwise nothing is different. -/
theorem C103_unshowable_receive (L : LogEnv) (hu : L.settings.ENABLE_UDP_LOGGING = true) (hh : L.settings.ENABLE_HOST_LOGGING = true)
    (env : DEnv) (hp : env.handlePackets = true) (st : DState) (r : HostRef) (dg : Bytes) (hs : ¬ HostShown L.ip (st.hosts r)) :
    receiveCheckL L env st r dg = receiveCheck env st r dg ∨
    ∃ m c, (receiveCheckL L env st r dg).1 = .error .valueError ∧
      (receiveCheckL L env st r dg).2.trace = st.trace ++ [.received (st.hosts r).addr dg, .parsed (st.hosts r).addr m] ∧
      (receiveCheckL L env st r dg).2.circuits.get? (st.hosts r).addr = some (Circuit.handlePacket c m) ∧
      ∃ st', receiveCheck env st r dg =
        (match (env.handler st'.trace m).run (sendWith env env.depth) st' with
          | (.error e, st) => (.error e, st)
          | (.ok _, st) => (.ok (some m), st)) ∧
        st'.trace = st.trace ++ [.received (st.hosts r).addr dg, .parsed (st.hosts r).addr m, .delivered m] := by
  have hl : L.logReceived (st.hosts r) dg = .error .valueError := by
    unfold LogEnv.logReceived
    rw [if_pos hu, hexString_some, unshowable_hostString hh hs]
    rfl
  unfold receiveCheckL receiveCheck
  split
  · simp only [hl, hp, if_true]
    have ht : ({ ({ (findCircuit st r).1 with packetsIn := (findCircuit st r).1.packetsIn + 1 } : DState).log (.received (st.hosts r).addr dg) with
        deser := (deserialize (env.deser (findCircuit st r).1.trace) (findCircuit st r).1.deser dg).2 } : DState).trace =
        st.trace ++ [.received (st.hosts r).addr dg] := by
      simp [DState.log, findCircuit_fields st r]
    revert ht
    generalize ({ ({ (findCircuit st r).1 with packetsIn := (findCircuit st r).1.packetsIn + 1 } : DState).log (.received (st.hosts r).addr dg) with
        deser := (deserialize (env.deser (findCircuit st r).1.trace) (findCircuit st r).1.deser dg).2 } : DState) = s1
    generalize (findCircuit st r).2 = c
    intro ht
    cases (deserialize (env.deser (findCircuit st r).1.trace) (findCircuit st r).1.deser dg).1 with
    | error e => left; rfl
    | ok o =>
      cases o with
      | none =>
        left
        simp only
        cases unpackInt env.ser.rt dg .u32 1 (some .big) <;> rfl
      | some m =>
        simp only
        split
        · left; rfl
        · right
          refine ⟨m, c, rfl, by simp [DState.log, DState.setCircuit, ht], by simp only [DState.log, DState.setCircuit, Dict.get?_set_self],
            ((s1.setCircuit (st.hosts r).addr (c.handlePacket m)).log (.parsed (st.hosts r).addr m)).log (.delivered m), ?_,
            by simp [DState.log, DState.setCircuit, ht]⟩
          generalize Prog.run _ _ _ = x
          obtain ⟨x1, x2⟩ := x
          cases x1 <;> rfl
  · left; rfl

/-- Both happen with the default settings and a `unicode` host name with an `ö`: nothing is sent, and the datagram that would have been delivered makes
the call raise.  With quiet settings the message is sent and the datagram is delivered. -/
theorem C103_unshowable_example :
    let hosts : HostRef → Host := fun r => ⟨.str "köln", some (13000 + r)⟩
    let loud : LogEnv := ⟨Settings.new, fun s => .uni s.toList⟩
    let quiet : LogEnv := ⟨Settings.new true, fun s => .uni s.toList⟩
    let ops : List Op := [.send demoMessage 0 .plain, .recv 0 demoDatagram]
    ¬ HostShown loud.ip (hosts 0) ∧
    sentDatagrams (runOpsL loud dispEnv (DState.init hosts) ops).trace = [] ∧
    (sentDatagrams (runOpsL quiet dispEnv (DState.init hosts) ops).trace).length = 1 ∧
    (receiveCheckL loud dispEnv (DState.init hosts) 0 demoDatagram).1 = .error .valueError ∧
    ((receiveCheckL loud dispEnv (DState.init hosts) 0 demoDatagram).2.circuits.get? (hosts 0).addr).map (·.acks) = some [9] ∧
    (receiveCheckL quiet dispEnv (DState.init hosts) 0 demoDatagram).1.toOption.join.map (·.packetId) = some 9 := by
  refine ⟨?_, by decide +kernel, by decide +kernel, by decide +kernel, by decide +kernel, by decide +kernel⟩
  rintro (h | h)
  · exact h (.uni "köln".toList) (by simp) trivial
  · have := h (.uni "köln".toList) (by simp) 'ö' (by decide +kernel)
    exact absurd this (by decide)

end Pyogp
