import Verif.Model.Logging
import Verif.Proofs.Dispatcher
import Verif.Props.Printing

namespace Pyogp
open Spec

/-- With these settings this host does not prevent a log message. -/
def LogOk (L : LogEnv) (h : Host) : Prop := L.hostString h = .ok () ∨ L.settings.ENABLE_UDP_LOGGING = false

variable {L : LogEnv} {env : DEnv}

theorem logSent_ok {h : Host} (hq : LogOk L h) (m : Message) (dg : Bytes) : L.logSent h m (some dg) = .ok () := by
  unfold LogEnv.logSent
  rcases hq with hq | hq
  · split
    · split
      · rfl
      · rw [hq]
        unfold LogEnv.hexString
        split <;> rfl
    · rfl
  · rw [hq]; rfl

theorem logReceived_ok {h : Host} (hq : LogOk L h) (dg : Bytes) : L.logReceived h dg = .ok () := by
  unfold LogEnv.logReceived
  rcases hq with hq | hq
  · split
    · rw [hq]
      unfold LogEnv.hexString
      split <;> rfl
    · rfl
  · rw [hq]; rfl

theorem handToSocketL_eq {h : Host} (hq : LogOk L h) (st : DState) (m : Message) :
    handToSocketL L env st h m = handToSocket env st h.addr m := by
  unfold handToSocketL handToSocket
  cases serialize env.ser m with
  | error e => rfl
  | ok buf =>
    cases buf with
    | none =>
      simp only
      cases L.logSent h m none <;> rfl
    | some dg => simp only [logSent_ok hq]

theorem transmitL_eq {st : DState} {r : HostRef} (hq : LogOk L (st.hosts r)) (m : Message) (mode : SendMode) :
    transmitL L env st m r mode = transmit env st m r mode := by
  unfold transmitL transmit
  exact handToSocketL_eq hq _ _

/-- The hosts of a state do not prevent log messages. -/
def AllLogOk (L : LogEnv) (st : DState) : Prop := ∀ r, LogOk L (st.hosts r)

theorem allLogOk_closed : Closed env (fun _ v => LogOk L v) (AllLogOk L) where
  hosts := by
    intro st r v hv h x
    simp only [DState.setHost]
    split
    · exact hv
    · exact h x
  outgoing := fun st m h => h
  transmit := by
    intro st m r mode h
    have : (transmit env st m r mode).2.hosts = st.hosts := by
      rw [transmit_eq]
      have := (preparedState_fields st m r mode).1
      rcases handToSocket_cases env (preparedState st m r mode) (st.hosts r).addr (mode.prepare (findCircuit st r).2 m).2 with h' | ⟨dg, _, _, h'⟩
      · rw [h']; exact this
      · rw [h']; exact this
    intro x
    rw [this]
    exact h x
  received := by
    intro st r dg h x
    simp only [DState.log]
    rw [(findCircuit_fields st r).1]
    exact h x
  collect := fun st a c pid h _ _ => h
  parsed := fun st a c m h _ _ => h
  delivered := fun st m h => h
  cleared := fun st a c h _ => h
  remove := fun st r h => h
  trust := fun st a c b h _ => h

/-- Running subscribers with two ways of sending that agree on quiet states. -/
theorem Prog.run_congr {send send' : DState → Message → HostRef → SendMode → Py (Option Bytes) × DState}
    (he : ∀ st m r mode, AllLogOk L st → send' st m r mode = send st m r mode)
    (hp : ∀ st m r mode, AllLogOk L st → AllLogOk L (send st m r mode).2) :
    ∀ (p : Prog) (st : DState), p.Mutates (fun _ v => LogOk L v) → AllLogOk L st → p.run send' st = p.run send st
  | .done, st, _, _ => rfl
  | .raise e, st, _, _ => rfl
  | .send m r mode k, st, hm, h => by
    rw [Prog.run, Prog.run, he st m r mode h]
    exact Prog.run_congr he hp (k _) _ (hm _) (hp st m r mode h)
  | .setHost r v k, st, hm, h => by
    rw [Prog.run, Prog.run]
    refine Prog.run_congr he hp k _ hm.2 ?_
    intro x
    show LogOk L (if x = r then v else st.hosts x)
    split
    · exact hm.1
    · exact h x

theorem sendWithL_eq (hm : HandlerOk env (fun _ v => LogOk L v)) : ∀ (n : Nat) (st : DState) (m : Message) (r : HostRef) (mode : SendMode),
    AllLogOk L st → sendWithL L env n st m r mode = sendWith env n st m r mode
  | 0, st, m, r, mode, h => rfl
  | n + 1, st, m, r, mode, h => by
    unfold sendWithL sendWith
    split
    · rfl
    · split
      · simp only
        have e := Prog.run_congr (L := L) (send := sendWith env n) (send' := sendWithL L env n) (fun st m r mode hq => sendWithL_eq hm n st m r mode hq)
          (fun st m r mode hq => sendWith_preserves allLogOk_closed.toSendClosed hm n st m r mode hq)
          (env.handler (st.log (.outgoing m)).trace m) (st.log (.outgoing m)) (hm _ _) h
        have hq := handler_preserves (allLogOk_closed (L := L)).toSendClosed hm (st.log (.outgoing m)).trace m n (st.log (.outgoing m)) h
        rw [e]
        revert hq
        generalize (env.handler (st.log (.outgoing m)).trace m).run (sendWith env n) (st.log (.outgoing m)) = x
        obtain ⟨x1, x2⟩ := x
        intro hq
        cases x1 with
        | error e => rfl
        | ok u => exact transmitL_eq (hq r) m mode
      · exact transmitL_eq (h r) m mode

theorem receiveCheckL_eq (hm : HandlerOk env (fun _ v => LogOk L v)) (st : DState) (r : HostRef) (dg : Bytes) (h : AllLogOk L st) :
    receiveCheckL L env st r dg = receiveCheck env st r dg := by
  unfold receiveCheckL receiveCheck
  split
  · simp only
    have hq := (allLogOk_closed (L := L) (env := env)).received st r dg h
    have hr := h r
    revert hq
    generalize ({ ({ (findCircuit st r).1 with packetsIn := (findCircuit st r).1.packetsIn + 1 } : DState).log (.received (st.hosts r).addr dg) with
        deser := (deserialize (env.deser (findCircuit st r).1.trace) (findCircuit st r).1.deser dg).2 } : DState) = s1
    generalize (findCircuit st r).2 = c
    intro hq
    cases (deserialize (env.deser (findCircuit st r).1.trace) (findCircuit st r).1.deser dg).1 with
    | error e => rfl
    | ok o =>
      cases o with
      | none => rfl
      | some m =>
        simp only [logReceived_ok hr]
        split
        · rfl
        · split
          · have hq' : AllLogOk L (((s1.setCircuit (st.hosts r).addr (c.handlePacket m)).log (.parsed (st.hosts r).addr m)).log (.delivered m)) := hq
            rw [Prog.run_congr (L := L) (send := sendWith env env.depth) (send' := sendWithL L env env.depth)
              (fun st m r mode hq => sendWithL_eq hm _ st m r mode hq)
              (fun st m r mode hq => sendWith_preserves allLogOk_closed.toSendClosed hm _ st m r mode hq) _ _ (hm _ _) hq']
            generalize Prog.run _ _ _ = x
            obtain ⟨x1, x2⟩ := x
            cases x1 <;> rfl
          · rfl
  · rfl

theorem ackLoopL_eq (hm : HandlerOk env (fun _ v => LogOk L v)) (r : HostRef) : ∀ (ids : List Nat) (n : Nat) (msg : Message) (st : DState),
    AllLogOk L st → ackLoopL L env r ids n msg st = ackLoop env r ids n msg st
  | [], _, _, _, _ => rfl
  | pid :: ids, n, msg, st, h => by
    unfold ackLoopL ackLoop
    simp only
    split
    · have e : sendL L env st (addAckBlock (if n = 0 then Message.new "PacketAck" [] else msg) pid) r .plain =
          send env st (addAckBlock (if n = 0 then Message.new "PacketAck" [] else msg) pid) r .plain := sendWithL_eq hm _ _ _ _ _ h
      have hq := send_preserves (allLogOk_closed (L := L)).toSendClosed hm st (addAckBlock (if n = 0 then Message.new "PacketAck" [] else msg) pid) r .plain h
      rw [e]
      revert hq
      generalize send env st (addAckBlock (if n = 0 then Message.new "PacketAck" [] else msg) pid) r .plain = x
      obtain ⟨x1, x2⟩ := x
      intro hq
      cases x1 with
      | error e => rfl
      | ok u => exact ackLoopL_eq hm r ids 0 _ x2 hq
    · exact ackLoopL_eq hm r ids (n + 1) _ st h

theorem ackCircuitL_eq (hm : HandlerOk env (fun _ v => LogOk L v)) (st : DState) (a : Addr) (h : AllLogOk L st) :
    ackCircuitL L env st a = ackCircuit env st a := by
  unfold ackCircuitL ackCircuit
  cases st.circuits.get? a with
  | none => rfl
  | some c =>
    simp only
    have hq := ackLoop_preserves (allLogOk_closed (L := L)).toSendClosed hm c.host c.acks 0 (Message.new "PacketAck" []) st h
    rw [ackLoopL_eq hm c.host c.acks 0 (Message.new "PacketAck" []) st h]
    revert hq
    generalize ackLoop env c.host c.acks 0 (Message.new "PacketAck" []) st = x
    obtain ⟨x1, x2⟩ := x
    intro hq
    cases x1 with
    | error e => rfl
    | ok u =>
      obtain ⟨n, msg⟩ := u
      have e : sendL L env x2 msg c.host .plain = send env x2 msg c.host .plain := sendWithL_eq hm _ _ _ _ _ hq
      simp only [e]
      generalize (if 0 < n then send env x2 msg c.host .plain else (.ok none, x2)) = y
      obtain ⟨y1, y2⟩ := y
      cases y1 with
      | error e => rfl
      | ok u =>
        simp only
        cases y2.circuits.get? a <;> rfl

theorem sendAcksL_eq (hm : HandlerOk env (fun _ v => LogOk L v)) : ∀ (order : List Addr) (st : DState), AllLogOk L st →
    sendAcksL L env order st = sendAcks env order st
  | [], _, _ => rfl
  | a :: order, st, h => by
    have hq := ackCircuit_preserves (allLogOk_closed (L := L)).toAckClosed hm st a h
    rw [sendAcksL, sendAcks, ackCircuitL_eq hm st a h]
    revert hq
    generalize ackCircuit env st a = x
    obtain ⟨x1, x2⟩ := x
    intro hq
    cases x1 with
    | error e => rfl
    | ok u => exact sendAcksL_eq hm order x2 hq

theorem processAcksL_eq (hm : HandlerOk env (fun _ v => LogOk L v)) (st : DState) (order : List Addr) (h : AllLogOk L st) :
    processAcksL L env st order = processAcks env st order := by
  unfold processAcksL processAcks
  rw [sendAcksL_eq hm order st h]
  cases resendAll st <;> rfl

theorem runOpsL_eq (hm : HandlerOk env (fun _ v => LogOk L v)) : ∀ (ops : List Op) (_ : ∀ op ∈ ops, ∀ r v, op = .setHost r v → LogOk L v) (st : DState),
    AllLogOk L st → runOpsL L env st ops = runOps env st ops ∧ AllLogOk L (runOps env st ops)
  | [], _, _, h => ⟨rfl, h⟩
  | op :: ops, ho, st, h => by
    have e : stepL L env st op = step env st op := by
      cases op with
      | send m r mode => exact congrArg Prod.snd (sendWithL_eq hm _ st m r mode h)
      | recv r dg => exact congrArg Prod.snd (receiveCheckL_eq hm st r dg h)
      | processAcks order => exact congrArg Prod.snd (processAcksL_eq hm st order h)
      | _ => rfl
    have hq := step_preserves allLogOk_closed hm st op (fun r v h => ho op List.mem_cons_self r v h) h
    have := runOpsL_eq hm ops (fun o h' => ho o (List.mem_cons_of_mem _ h')) _ hq
    unfold runOpsL runOps at this ⊢
    rw [List.foldl_cons, List.foldl_cons, e]
    exact this

end Pyogp
