import Verif.Proofs.Manager
import Verif.Props.Circuit
import Verif.Proofs.RenderParsed

/-!
# The message manager (C41, C64, C65, C66)
-/

namespace Pyogp
open Spec

/-- A manager on the demonstration dispatcher: host object 0, sender object 1. -/
def demoManager : MEnv := { disp := dispEnv, host := 0, sender := 1 }
def demoMState : MState := { disp := DState.init dispHosts }
def demoEntries : List QEntry :=
  [⟨demoMessage, false, false⟩, ⟨Message.new "PacketAck" [], false, true⟩, ⟨demoMessage, true, false⟩, ⟨Message.new "Other" [], true, true⟩]

/-! ## C41 -/

/-- **C41.** After any `enqueue_message` calls `es` of messages built from blocks without non-ASCII `unicode` text, one pass of the loop
(whatever datagram it receives, as long as receiving it does not raise) calls `send_udp_message` for exactly the messages enqueued, urgent ones first in reverse order, then the others in order; each of
them is given an id for the manager's host with its contents and reliability; and the queue is empty. -/
theorem C41_one_pass (env : MEnv) (hb : env.disp.handleOutgoing = false) (hd : 0 < env.disp.depth) (hm : ∀ s, env.meanwhile s = [])
    (hosts : HostRef → Host) (ops : List Op) (es : List QEntry) (hes : ∀ e ∈ es, BuiltFromBlocks e.msg ∧ ¬ HasNonAsciiText e.msg) (i : Option Incoming) (order : DState → List Addr) (fuel : Nat)
    (hf : es.length < fuel) (o : Option Message) (d : DState)
    (hr : receiveRound env (runOps env.disp (DState.init hosts) ops) i = (.ok o, d))
    (hok : (d.hosts env.host).isOk = true) :
    ∃ st' acked new, udpRound env fuel ({ disp := runOps env.disp (DState.init hosts) ops : MState }.enqueueAll es) i order = (some (.ok ()), st') ∧
      st'.queue = [] ∧ st'.calls = sendOrder es ∧ ackRound env d (order d) = (.ok (), acked) ∧ st'.disp.trace = acked.trace ++ new ∧
      (preparedMsgs new).map visible = (sendOrder es).map (wanted (d.hosts env.host).addr) := by
  have hen : ∀ s : MState, s.enqueueAll [] = s := by intro s; simp [MState.enqueueAll]
  have hq : ({ disp := runOps env.disp (DState.init hosts) ops : MState }.enqueueAll es).queue = sendOrder es := by
    simp [MState.enqueueAll, enqueue_foldl, sendOrder]
  have hlen : (sendOrder es).length = es.length := by
    have h1 : ((es.filter (·.now)) ++ es.filter (fun e => !e.now)).length = es.length := (List.filter_append_perm _ es).length_eq
    simp only [sendOrder, List.length_append, List.length_reverse] at h1 ⊢
    exact h1
  have hdisp : ({ disp := runOps env.disp (DState.init hosts) ops : MState }.enqueueAll es).disp = runOps env.disp (DState.init hosts) ops := rfl
  generalize hst : ({ disp := runOps env.disp (DState.init hosts) ops : MState }.enqueueAll es) = st at hq hdisp
  have hcalls : st.calls = [] := by rw [← hst]; rfl
  have hreach : Reach env.disp d := by
    have := (reach_closed env).recv st i (by rw [hdisp]; exact ⟨hosts, ops, rfl⟩)
    simp only [MState.setDisp, hdisp, hr] at this
    exact this
  obtain ⟨acked, ha, hh⟩ := ackRound_noerr hb hd hreach (order d)
  have hu : udpRound env fuel st i order = drain env fuel (st.setDisp acked) := by
    unfold udpRound
    simp only [hm, hen, hdisp, hr]
    simp only [MState.setDisp, ha]
  obtain ⟨st', new, g1, g2, g3, g4, g5, g6⟩ := drain_default hb hd hm fuel (st.setDisp acked)
    (by simp only [MState.setDisp, hq, hlen]; exact hf) (by simp only [MState.setDisp, hh]; exact hok)
    (by
      simp only [MState.setDisp, hq]
      intro e he
      have he' : e ∈ es := by
        rcases List.mem_append.mp he with h | h
        · exact (List.mem_filter.mp (List.mem_reverse.mp h)).1
        · exact (List.mem_filter.mp h).1
      rcases Message.render_untyped (hes e he').1 with ⟨h, _⟩ | ⟨_, h⟩
      · exact absurd h (hes e he').2
      · exact h)
  refine ⟨st', acked, new, hu.trans g1, g2, ?_, ha, g5, ?_⟩
  · rw [g3]; simp only [MState.setDisp, hcalls, hq]; rfl
  · rw [g6]; simp only [MState.setDisp, hq, hh]

example : sendOrder demoEntries = [demoEntries[3], demoEntries[1], demoEntries[0], demoEntries[2]] := by decide +kernel

example : let r := udpRound demoManager 9 (demoMState.enqueueAll demoEntries) (some ⟨"sim", 13001, demoDatagram⟩) (fun d => d.circuits.keys)
    r.1 = some (.ok ()) ∧ r.2.queue = [] ∧ (preparedMsgs r.2.disp.trace).map (fun p => (p.1, p.2.name, p.2.sendFlags)) =
      [(dispAddr 1, "PacketAck", 0), (dispAddr 0, "Other", 0x40), (dispAddr 0, "PacketAck", 0), (dispAddr 0, "Demo", 0), (dispAddr 0, "Demo", 0x40)] := by
  decide +kernel

/-- **C41, the exception:** messages with non-ASCII `unicode` text: if such a message cannot be sent (here: it has no template), the exception
ends the pass and the messages after it stay in the queue. -/
theorem C41_text_can_end_pass :
    let bad := Message.new "NoSuchMessage" [.one (Block.mk' "B" [("V", .unicode [0xc3, 0xa9])])]
    let r := udpRound demoManager 9 (demoMState.enqueueAll [⟨bad, false, false⟩, ⟨demoMessage, true, false⟩]) none (fun d => d.circuits.keys)
    r.1 = some (.error .valueError) ∧ r.2.queue.map (·.msg.name) = ["Demo"] ∧ sentDatagrams r.2.disp.trace = [] := by decide +kernel

/-- **C41**, whatever is enqueued while the loop runs, whatever is received, whatever fails: at every moment what was enqueued is, up to
order, what was handed to `send_udp_message` and what is still queued (so no message is lost or sent twice); messages that are not urgent are
sent in the order they were enqueued; and when the loop ends normally nothing is left. -/
theorem C41_nothing_lost (env : MEnv) (fuel : Nat) (order : DState → List Addr) (is : List (Option Incoming)) (d : DState) (es : List QEntry) :
    let st := (udpLoop env fuel order is ({ disp := d : MState }.enqueueAll es)).2
    (st.calls ++ st.queue).Perm st.enqueued ∧
    (st.calls ++ st.queue).filter (fun e => !e.now) = st.enqueued.filter (fun e => !e.now) ∧
    ((udpLoop env fuel order is ({ disp := d : MState }.enqueueAll es)).1 = some (.ok ()) → is ≠ [] → st.queue = []) := by
  have hq : QueueInv ({ disp := d : MState }.enqueueAll es) := QueueInv.enqueueAll ⟨by simp, by simp⟩ es
  have := udpLoop_preserves (queueInv_closed env) fuel order is _ hq
  refine ⟨this.perm, this.fifo, ?_⟩
  intro h hne
  exact udpLoop_ok_queue is _ _ (Prod.ext h rfl) hne

/-- What is enqueued meanwhile is recorded: with one more message after the second send. -/
example : let env := { demoManager with meanwhile := fun s => if s.calls.length = 2 ∧ s.enqueued.length = 4 then [⟨Message.new "Late" [], false, true⟩] else [] }
    let r := udpLoop env 9 (fun d => d.circuits.keys) [none, none] (demoMState.enqueueAll demoEntries)
    r.1 = some (.ok ()) ∧ r.2.calls.map (·.msg.name) = ["Other", "PacketAck", "Late", "Demo", "Demo"] := by decide +kernel

/-- **C41, the other exception:** an invalid host (no address yet) makes every queued message disappear silently. -/
theorem C41_invalid_host_drops_messages :
    let env := { demoManager with host := 7 }
    let st : MState := { disp := DState.init (fun r => if r = 7 then ⟨.str "", none⟩ else dispHosts r) }
    let r := udpRound env 9 (st.enqueueAll demoEntries) none (fun d => d.circuits.keys)
    r.1 = some (.ok ()) ∧ r.2.queue = [] ∧ r.2.disp.trace = [] := by decide +kernel

/-! ## C64 -/

/-- **C64, receiving.** If receiving a datagram raises, the loop ends with that exception: nothing in the queue, and nothing enqueued
later, is sent, and no further datagram is read. -/
theorem C64_exception_ends_loop (env : MEnv) (fuel : Nat) (order : DState → List Addr) (i : Option Incoming) (is : List (Option Incoming))
    (st : MState) (x : Exc) (h : (receiveRound env st.disp i).1 = .error x) :
    (udpLoop env fuel order (i :: is) st).1 = some (.error x) ∧ (udpLoop env fuel order (i :: is) st).2.calls = st.calls ∧
    (udpLoop env fuel order (i :: is) st).2.disp = (receiveRound env st.disp i).2 := by
  have hu : udpRound env fuel st i order =
      (some (.error x), (st.enqueueAll (env.meanwhile st)).setDisp (receiveRound env st.disp i).2) := by
    unfold udpRound
    have hd : (st.enqueueAll (env.meanwhile st)).disp = st.disp := rfl
    simp only [hd]
    cases hr : receiveRound env st.disp i with
    | mk r d => rw [hr] at h; simp only at h; subst h; rfl
  unfold udpLoop
  rw [hu]
  exact ⟨rfl, rfl, rfl⟩

/-- **C64, consequence:** anyone can end the loop with one datagram: five bytes with the zero-code flag. -/
theorem C64_five_bytes_end_loop (env : MEnv) (fuel : Nat) (order : DState → List Addr) (ip : String) (port : Nat) (is : List (Option Incoming)) (st : MState) :
    (udpLoop env fuel order (some ⟨ip, port, [0x80, 0, 0, 0, 9]⟩ :: is) st).1 = some (.error .indexError) ∧
    (udpLoop env fuel order (some ⟨ip, port, [0x80, 0, 0, 0, 9]⟩ :: is) st).2.calls = st.calls := by
  have h : (receiveRound env st.disp (some ⟨ip, port, [0x80, 0, 0, 0, 9]⟩)).1 = .error .indexError := by
    have ht : List.take recvBuffer ([0x80, 0, 0, 0, 9] : Bytes) = [0x80, 0, 0, 0, 9] := rfl
    unfold receiveRound receiveCheck
    simp only [ht, List.length_cons, Nat.zero_lt_succ, if_true]
    rw [(C16_index_error _ _).2.2.1]
  obtain ⟨h1, h2, _⟩ := C64_exception_ends_loop env fuel order _ is st _ h
  exact ⟨h1, h2⟩

/-- **C64, everything else.** With the default setting (subscribers do not see outgoing messages), and if all messages ever enqueued are built from
blocks without non-ASCII `unicode` text, nothing but receiving can end the loop with an exception, in any history. -/
theorem C64_only_receiving_raises (env : MEnv) (hb : env.disp.handleOutgoing = false) (hd : 0 < env.disp.depth) (fuel : Nat)
    (order : DState → List Addr) (is : List (Option Incoming)) (hosts : HostRef → Host) (es : List QEntry) (x : Exc)
    (ht : ∀ e ∈ (udpLoop env fuel order is ({ disp := DState.init hosts : MState }.enqueueAll es)).2.enqueued,
      BuiltFromBlocks e.msg ∧ ¬ HasNonAsciiText e.msg)
    (h : (udpLoop env fuel order is ({ disp := DState.init hosts : MState }.enqueueAll es)).1 = some (.error x)) :
    ∃ ops hosts' i, i ∈ is ∧ (receiveRound env (runOps env.disp (DState.init hosts') ops) i).1 = .error x := by
  have hq : QueueInv ({ disp := DState.init hosts : MState }.enqueueAll es) := QueueInv.enqueueAll ⟨by simp, by simp⟩ es
  obtain ⟨d, i, h1, ⟨hosts', ops, h2⟩, h3⟩ := udpLoop_error hb hd fuel order is _ ⟨hosts, [], rfl⟩ hq
    (by
      intro e he
      rcases Message.render_untyped (ht e he).1 with ⟨h, _⟩ | ⟨_, h⟩
      · exact absurd h (ht e he).2
      · exact h) x h
  exact ⟨ops, hosts', i, h1, by rw [← h2]; exact h3⟩

example : (udpLoop demoManager 9 (fun d => d.circuits.keys) [some ⟨"sim", 13001, demoDatagram⟩, some ⟨"sim", 13002, [0x80, 0, 0, 0, 9]⟩]
    (demoMState.enqueueAll demoEntries)).1 = some (.error .indexError) := by decide +kernel

/-- The messages of the examples are built from blocks with ASCII text. -/
theorem demoEntries_text : ∀ e ∈ demoEntries, BuiltFromBlocks e.msg ∧ ¬ HasNonAsciiText e.msg := by
  have hall : ∀ e ∈ demoEntries, BuiltFromBlocks e.msg := by
    intro e he
    simp only [demoEntries, List.mem_cons, List.not_mem_nil, or_false] at he
    have hd : BuiltFromBlocks demoMessage := builtFromBlocks_new "Demo" _ (by
      intro b hb
      simp only [flatArgs, List.mem_cons, List.mem_append, List.not_mem_nil, or_false] at hb
      rcases hb with rfl | rfl | rfl <;> exact ⟨_, _, rfl⟩)
    rcases he with rfl | rfl | rfl | rfl
    · exact hd
    · exact builtFromBlocks_new "PacketAck" [] (by intro b hb; cases hb)
    · exact hd
    · exact builtFromBlocks_new "Other" [] (by intro b hb; cases hb)
  have hren : ∀ e ∈ demoEntries, e.msg.render ≠ .error .valueError := by decide +kernel
  intro e he
  refine ⟨hall e he, fun hn => ?_⟩
  rcases Message.render_untyped (hall e he) with ⟨_, h⟩ | ⟨h, _⟩
  · exact hren e he h
  · exact h hn

/-! ## C65, C66 -/

/-- **C65.** With an event queue, `stop_monitors` ends the UDP loop and stops the event queue exactly if it runs. -/
theorem C65_stop (running : Bool) : stopMonitors (some running) = (.ok (), (false, running)) := rfl

/-- **C65, the exception:** without an event queue `stop_monitors` raises (the UDP loop is told to stop all the same). -/
theorem C65_without_event_queue : stopMonitors none = (.error .attributeError, (false, false)) := rfl

/-- **C66.** Construction succeeds exactly if the template and the xml are files or absent, and there is a handler or packets are
handled; otherwise it raises an undeclared exception. -/
theorem C66_construction (handlerGiven handlePackets : Bool) (template xml : FileArg) :
    (managerInit handlerGiven handlePackets template xml = .ok () ↔
      template ≠ .other ∧ xml ≠ .other ∧ (handlerGiven = true ∨ handlePackets = true)) := by
  cases handlerGiven <;> cases handlePackets <;> cases template <;> cases xml <;> decide

/-- **C66, consequence:** without a handler and with packet handling switched off, construction always raises. -/
theorem C66_handling_off (template xml : FileArg) : ∃ x, managerInit false false template xml = .error x := by
  cases template <;> cases xml <;> exact ⟨_, rfl⟩

/-- **C66, consequence:** the documented fallback for an argument that is not a file raises `NameError` instead. -/
theorem C66_fallback (handlerGiven handlePackets : Bool) (xml : FileArg) :
    managerInit handlerGiven handlePackets .other xml = .error .nameError := by
  cases handlerGiven <;> cases handlePackets <;> cases xml <;> rfl

/-! ## C69 -/

theorem drain_pending {env : MEnv} (hb : env.disp.handleOutgoing = false) : ∀ (fuel : Nat) (st : MState) (a : Addr),
    pending (drain env fuel st).2.disp a = pending st.disp a := by
  intro fuel
  induction fuel with
  | zero => intro st a; rfl
  | succ fuel ih =>
    intro st a
    unfold drain
    split
    · rfl
    · rename_i e q _
      have hk := sendWith_keeps (H := st.disp.hosts) (fun h => by rw [hb] at h; cases h) env.disp.depth st.disp e.msg env.host
        (if e.reliable then .reliable 0 else .plain) rfl
      have hs : (sendUdpMessage env (st.popped e q).disp e).2 = (sendWith env.disp env.disp.depth st.disp e.msg env.host
        (if e.reliable then .reliable 0 else .plain)).2 := by rw [sendUdp_mode]; rfl
      rw [← hs] at hk
      cases hr : sendUdpMessage env (st.popped e q).disp e with
      | mk r d =>
        rw [hr] at hk
        simp only [hr]
        cases r with
        | error x => exact hk.pend a
        | ok o =>
          simp only
          rw [ih]
          exact hk.pend a

theorem drain_trace {env : MEnv} (hb : env.disp.handleOutgoing = false) : ∀ (fuel : Nat) (st : MState),
    st.disp.trace <+: (drain env fuel st).2.disp.trace := by
  intro fuel
  induction fuel with
  | zero => intro st; exact List.prefix_refl _
  | succ fuel ih =>
    intro st
    unfold drain
    split
    · exact List.prefix_refl _
    · rename_i e q _
      have hk := sendWith_keeps (H := st.disp.hosts) (fun h => by rw [hb] at h; cases h) env.disp.depth st.disp e.msg env.host
        (if e.reliable then .reliable 0 else .plain) rfl
      have hs : (sendUdpMessage env (st.popped e q).disp e).2 = (sendWith env.disp env.disp.depth st.disp e.msg env.host
        (if e.reliable then .reliable 0 else .plain)).2 := by rw [sendUdp_mode]; rfl
      rw [← hs] at hk
      cases hr : sendUdpMessage env (st.popped e q).disp e with
      | mk r d =>
        rw [hr] at hk
        simp only [hr]
        cases r with
        | error x => exact hk.trace
        | ok o => exact hk.trace.trans (ih (((st.popped e q).setDisp d).enqueueAll _))

/-- **C69.** In every reachable state of a manager whose circuits have valid hosts, one pass of the loop sends exactly the acknowledgements of
all packets waiting to be acknowledged – those received before and the one received in this pass – and leaves none waiting, whatever is
enqueued and sent in the same pass.  (Default setting: subscribers do not see outgoing packets.) -/
theorem C69_pass_acknowledges (env : MEnv) (hb : env.disp.handleOutgoing = false) (hd : 0 < env.disp.depth)
    (hosts : HostRef → Host) (ops : List Op) (st : MState) (hst : st.disp = runOps env.disp (DState.init hosts) ops) (i : Option Incoming)
    (order : DState → List Addr) (fuel : Nat) (o : Option Message) (d : DState) (hr : receiveRound env st.disp i = (.ok o, d))
    (hp : (order d).Perm d.circuits.keys) (hv : HostsValid d) :
    (∀ a, pending (udpRound env fuel st i order).2.disp a = []) ∧
    ∃ new rest, (udpRound env fuel st i order).2.disp.trace = d.trace ++ new ++ rest ∧ Acknowledges d (order d) (preparedMsgs new) := by
  have hreach : Reach env.disp d := by
    have := (reach_closed env).recv st i ⟨hosts, ops, hst⟩
    rw [hr] at this
    exact this
  obtain ⟨hosts', ops', rfl⟩ := hreach
  have hack : ∃ acked new, ackRound env (runOps env.disp (DState.init hosts') ops') (order (runOps env.disp (DState.init hosts') ops')) = (.ok (), acked) ∧
      (∀ a, pending acked a = []) ∧ acked.trace = (runOps env.disp (DState.init hosts') ops').trace ++ new ∧
      Acknowledges (runOps env.disp (DState.init hosts') ops') (order (runOps env.disp (DState.init hosts') ops')) (preparedMsgs new) := by
    unfold ackRound
    split
    · obtain ⟨h1, ⟨new, h2, h3⟩, h4⟩ := C24_acks_exact env.disp hb hd hosts' ops' _ hp hv
      exact ⟨_, new, Prod.ext h1 rfl, h4, h2, h3⟩
    · rename_i hu
      have hnone : ∀ a, pending (runOps env.disp (DState.init hosts') ops') a = [] := by
        intro a
        unfold pending
        split
        · rename_i c hc
          simp only [hasUnacked, Bool.not_eq_true, List.any_eq_false, decide_eq_true_eq, Nat.not_lt] at hu
          have := hu c (List.mem_map.mpr ⟨_, Dict.mem_of_get? hc, rfl⟩)
          exact List.length_eq_zero_iff.mp (by omega)
        · rfl
      refine ⟨_, [], rfl, hnone, by simp, fun _ => [], ?_, ?_⟩
      · intro a _; exact ⟨(hnone a).symm, by simp⟩
      · have : (order (runOps env.disp (DState.init hosts') ops')).flatMap (fun _ => ([] : List (List Nat))) = [] := by simp
        rw [this]; exact .nil
  obtain ⟨acked, new, h1, h2, h3, h4⟩ := hack
  have hu : ∃ s : MState, udpRound env fuel st i order = drain env fuel s ∧ s.disp = acked := by
    unfold udpRound
    have e1 : (st.enqueueAll (env.meanwhile st)).disp = st.disp := rfl
    simp only [e1, hr]
    have e2 : ∀ es, (((st.enqueueAll (env.meanwhile st)).setDisp (runOps env.disp (DState.init hosts') ops')).enqueueAll es).disp =
      runOps env.disp (DState.init hosts') ops' := fun _ => rfl
    simp only [e2, h1]
    exact ⟨_, rfl, rfl⟩
  obtain ⟨s, hs, hsd⟩ := hu
  rw [hs]
  refine ⟨fun a => by rw [drain_pending hb, hsd]; exact h2 a, ?_⟩
  obtain ⟨rest, hrest⟩ := drain_trace hb fuel s
  exact ⟨new, rest, by rw [← hrest, hsd, h3], h4⟩

/-- The demonstration datagram asks for an acknowledgement, and the pass that receives it sends one. -/
example : let r := udpRound demoManager 9 demoMState (some ⟨"sim", 13001, demoDatagram⟩) (fun d => d.circuits.keys)
    r.1 = some (.ok ()) ∧ (preparedMsgs r.2.disp.trace).map (fun p => (p.1, p.2.name)) = [(dispAddr 1, "PacketAck")] := by decide +kernel

end Pyogp
