import Verif.Proofs.SwitchingAtomic
import Verif.Proofs.SwitchingLoss
import Verif.Props.Circuit
import Mathlib.Data.List.Nodup

/-!
# C90: coroutine switches inside sending

A *history with switches* is `runSwitching env (SState.init hosts) acts`: packets being sent can be suspended while the subscribers of outgoing packets
run and while the socket is not ready, and other coroutines go on.
-/

namespace Pyogp
open Spec

/-! ## Every history of operations is a history with switches -/

/-- What happens when nobody switches is one of the things that can happen: the histories of C20–C32 are histories with switches. -/
theorem C90_includes_operations (env : DEnv) (hd : 0 < env.depth) (hosts : HostRef → Host) (ops : List Op) :
    ∃ acts, runSwitching env (SState.init hosts) acts = ⟨runOps env (DState.init hosts) ops, [], []⟩ := runOps_sim env hd ops _

/-! ## What does not depend on the switches -/

/-- **C90.** Whatever the switches, the ids given to packets for an address are `1, 2, …, n`: no two packets get the same. -/
theorem C90_ids (env : DEnv) (hosts : HostRef → Host) (acts : List SAct) (a : Addr) :
    let ids := outIds (circuitHistory a (runSwitching env (SState.init hosts) acts).disp.trace)
    ids = List.range' 1 ids.length ∧ ids.Nodup := by
  have hi := switching_inv env hosts acts
  generalize (runSwitching env (SState.init hosts) acts).disp = st at hi
  have : outIds (circuitHistory a st.trace) = List.range' 1 (outIds (circuitHistory a st.trace)).length := by
    cases h : st.circuits.get? a with
    | none => rw [hi.absent a h]; rfl
    | some c => rw [(hi.circ a c h).ids]; simp
  refine ⟨this, ?_⟩
  rw [this]; exact List.nodup_range' 1

/-- The unacked packets of a circuit are exactly those prepared as reliable ones and not acknowledged since. -/
theorem C90_unacked (env : DEnv) (hosts : HostRef → Host) (acts : List SAct) (a : Addr) (c : Circuit)
    (hc : (runSwitching env (SState.init hosts) acts).disp.circuits.get? a = some c) :
    (∀ id, id ∈ c.unacked.keys ↔ Waiting (circuitHistory a (runSwitching env (SState.init hosts) acts).disp.trace) id) ∧
    c.unacked.keys.Nodup ∧ c.unackCount = c.unacked.keys.length := by
  have hi := (switching_inv env hosts acts).circ a c hc
  refine ⟨hi.waiting, hi.ok.nodup, ?_⟩
  rw [hi.ok.count]; simp [Dict.keys]

/-- There is one circuit per address, and the counters count the datagrams received and accepted by the socket. -/
theorem C90_counts (env : DEnv) (hosts : HostRef → Host) (acts : List SAct) :
    let st := (runSwitching env (SState.init hosts) acts).disp
    st.circuits.keys.Nodup ∧ st.packetsIn = receivedCount st.trace ∧ st.packetsOut = sentCount st.trace :=
  ⟨(switching_inv env hosts acts).nodup, (switching_inv env hosts acts).packetsIn, (switching_inv env hosts acts).packetsOut⟩

/-! ## What leaves -/

/-- Every prepared packet leaves at most once, as the datagram it is, to the address it got its id for: the datagrams the socket took and those waiting
for it are, counted with multiplicity, among the datagrams of the prepared packets. -/
theorem C90_sent (env : DEnv) (hosts : HostRef → Host) (acts : List SAct) :
    let s := runSwitching env (SState.init hosts) acts
    (sentDatagrams s.disp.trace ++ waitingForSocket s.tasks).Subperm (preparedDatagrams env.ser s.disp.trace) :=
  runSwitching_onTheWay env acts _ (by simp [OnTheWay, SState.init, DState.init, sentDatagrams, waitingForSocket, preparedDatagrams, preparedMsgs])

/-- Two packets on the way at the same time. -/
def overtaking : List SAct :=
  [.start demoMessage 0 .plain, .start demoMessage 0 (.reliable 3), .go 0, .go 1, .accept 1, .accept 0]

/-- Datagrams can overtake each other: they need not leave in the order of their ids. -/
theorem C90_overtaking : ∃ acts,
    let s := runSwitching dispEnv (SState.init dispHosts) acts
    s.tasks = [] ∧ outIds (circuitHistory (dispAddr 0) s.disp.trace) = [1, 2] ∧
    (sentDatagrams s.disp.trace).map (fun x => x.2.take 5) = [[0x40, 0, 0, 0, 2], [0, 0, 0, 0, 1]] :=
  ⟨overtaking, by decide +kernel⟩

/-! ## Acknowledgements -/

/-- **C90.** A `process_acks` during which other coroutines send whatever they like and remove circuits, but nobody receives or acknowledges: when it is finished, the
acknowledgements of exactly the ids queued at its start are among the packets prepared meanwhile, in order, and nothing is queued any more. -/
theorem C90_acks_exact (env : DEnv) (hosts : HostRef → Host) (before : List SAct)
    (h0 : (runSwitching env (SState.init hosts) before).acking = false) (order : List Addr)
    (hp : order.Perm (runSwitching env (SState.init hosts) before).disp.circuits.keys)
    (hv : HostsValid (runSwitching env (SState.init hosts) before).disp) (acts : List SAct) :
    let s := runSwitching env (SState.init hosts) before
    let s' := runSwitching env (sstep env s (.acks order)) acts
    Undisturbed env (sstep env s (.acks order)) acts → s'.acking = false →
    (∃ new sel, s'.disp.trace = s.disp.trace ++ new ∧ sel.Sublist (preparedMsgs new) ∧ Acknowledges s.disp order sel) ∧
    ∀ a, pending s'.disp a = [] := by
  have hi := switching_inv env hosts before
  generalize runSwitching env (SState.init hosts) before = s at *
  intro _ s' hu hfin
  have hstart : AckStart s.disp order := ⟨hp.nodup_iff.mpr hi.nodup, fun a ha => by
    obtain ⟨c, hc⟩ := keys_get? (hp.mem_iff.mp ha)
    exact ⟨c, hc, hv a c hc⟩⟩
  have hr : resendAll s.disp = .ok () := by unfold resendAll; rw [hi.noRetry]; rfl
  have hbegin : AckInv s.disp order (sstep env s (.acks order)) := by
    simp only [sstep, hr]
    have := ackFrom_inv (env := env) hstart (order.map (fun a => (a, CircuitRef.inMap a))) s [] (by simp [Function.comp_def]) ?_ ?_ ((ackers_nil_iff s).mpr h0)
    · rw [List.map_map] at this
      exact this
    · rw [List.map_map]
      refine List.Nodup.map (fun x y he => ?_) hstart.nodup
      exact CircuitRef.inMap.inj he
    · refine ⟨fun _ => [], [], [], by simp, rfl, ?_, ?_, by simp, by simp, by simp [preparedMsgs], by simp⟩
      · intro x hx
        obtain ⟨a, ha, rfl⟩ := List.mem_map.mp hx
        obtain ⟨c, hc, _⟩ := hstart.circ a ha
        exact ⟨c, c, hc, hc, rfl, by unfold pending; rw [hc]⟩
      · intro a
        by_cases ha : a ∈ order
        · exact .inr (List.mem_map.mpr ⟨(a, .inMap a), List.mem_map_of_mem ha, rfl⟩)
        · refine .inl ?_
          have : s.disp.circuits.get? a = none := (Dict.get?_eq_none_iff _ _).mpr (fun hk => ha (hp.mem_iff.mpr hk))
          unfold pending; rw [this]
  have hend := runSwitching_ackInv hstart acts _ hbegin hu
  rcases hend with ⟨_, hpr⟩ | ⟨t, _, _, _, _, _, _, ht, _⟩
  · obtain ⟨parts, new, sel, h1, _, _, h4, h5, _, h7, h8⟩ := hpr
    rw [List.append_nil] at h8
    exact ⟨⟨new, sel, h1, h7, parts, h5, h8⟩, fun a => (h4 a).resolve_right (by simp)⟩
  · rw [(ackers_nil_iff _).mpr hfin] at ht
    cases ht

theorem hostsValid_of_all {st : DState} (h : st.circuits.all (fun x => (st.hosts x.2.host).isOk) = true) : HostsValid st := by
  intro a c hc
  exact List.all_eq_true.mp h _ (Dict.mem_of_get? hc)

/-- Packets 9 of two peers have to be acknowledged. -/
def ackBefore : List SAct := [.recv 0 demoDatagram, .recv 1 demoDatagram]

/-- While they are, another coroutine sends two packets, the first of which is overtaken by an acknowledgement. -/
def ackMeanwhile : List SAct :=
  [.start demoMessage 0 .plain, .go 1, .go 0, .accept 0, .start demoMessage 1 (.reliable 3), .go 2, .go 1, .accept 0, .refuse 0, .accept 0]

example : let s := runSwitching dispEnv (SState.init dispHosts) ackBefore
    let s' := runSwitching dispEnv (sstep dispEnv s (.acks s.disp.circuits.keys)) ackMeanwhile
    s.acking = false ∧ HostsValid s.disp ∧ Undisturbed dispEnv (sstep dispEnv s (.acks s.disp.circuits.keys)) ackMeanwhile ∧ s'.acking = false ∧
    (preparedMsgs s'.disp.trace).map (fun x => (x.1, x.2.packetId, x.2.name)) =
      [(dispAddr 0, 1, "Demo"), (dispAddr 0, 2, "PacketAck"), (dispAddr 1, 1, "Demo"), (dispAddr 1, 2, "PacketAck")] ∧
    (sentDatagrams s'.disp.trace).map (fun x => (x.1, x.2.take 5)) =
      [(dispAddr 0, [0, 0, 0, 0, 2]), (dispAddr 0, [0x10, 0, 0, 0, 1]), (dispAddr 1, [0x50, 0, 0, 0, 1])] := by
  refine ⟨by decide +kernel, ?_, ?_, by decide +kernel, by decide +kernel, by decide +kernel⟩
  · exact hostsValid_of_all (by decide +kernel)
  · simp only [Undisturbed, ackMeanwhile, Elsewhere, and_true]

/-- While peer 0 is acknowledged, the circuit of peer 1 is removed. -/
def ackRemoving : List SAct := [.removeCircuit 1, .go 0, .accept 0, .go 0, .accept 0]

/-- … its packet is acknowledged all the same, to which end a new circuit is made, which counts from 1 again. -/
theorem C90_removed_meanwhile :
    let s := runSwitching dispEnv (SState.init dispHosts) (ackBefore ++ [.start demoMessage 1 .plain, .go 0, .accept 0])
    let s' := runSwitching dispEnv (sstep dispEnv s (.acks s.disp.circuits.keys)) ackRemoving
    s.acking = false ∧ HostsValid s.disp ∧ Undisturbed dispEnv (sstep dispEnv s (.acks s.disp.circuits.keys)) ackRemoving ∧ s'.tasks = [] ∧
    (preparedMsgs s'.disp.trace).map (fun x => (x.1, x.2.packetId, x.2.name)) =
      [(dispAddr 1, 1, "Demo"), (dispAddr 0, 1, "PacketAck"), (dispAddr 1, 1, "PacketAck")] ∧
    s'.disp.circuits.keys = [dispAddr 0, dispAddr 1] := by
  refine ⟨by decide +kernel, ?_, ?_, by decide +kernel, by decide +kernel, by decide +kernel⟩
  · exact hostsValid_of_all (by decide +kernel)
  · simp only [Undisturbed, ackRemoving, Elsewhere, and_true]

/-- Packet 10 of peer 0. -/
def laterDatagram : Bytes := [0x50, 0, 0, 0, 10, 0, 0xff, 0xff, 1, 44, 77, 0, 0, 0, 1, 0, 0] ++ [1, 0, 0, 0, 7, 0, 0, 0, 2]

/-- Without the proviso (the manager was started twice, so that two coroutines receive): a reliable packet accepted while the last packet of
`process_acks` is being sent is never acknowledged.  Its id is thrown away with the ids that were. -/
theorem C90_lost_acknowledgement : ∃ acts,
    let s := runSwitching dispEnv (SState.init dispHosts) acts
    s.tasks = [] ∧ (∃ m, CEv.inn m ∈ circuitHistory (dispAddr 0) s.disp.trace ∧ m.packetId = 10 ∧ m.reliable = true) ∧
    pending s.disp (dispAddr 0) = [] ∧ (preparedMsgs s.disp.trace).map Prod.fst = [dispAddr 0] ∧
    ∀ x ∈ preparedMsgs s.disp.trace, IsAckFor x.2 [9] := by
  refine ⟨[.recv 0 demoDatagram, .acks [dispAddr 0], .go 0, .recv 0 laterDatagram, .accept 0], by decide +kernel, ?_, by decide +kernel, by decide +kernel, ?_⟩
  · have h : (circuitHistory (dispAddr 0) (runSwitching dispEnv (SState.init dispHosts)
        [.recv 0 demoDatagram, .acks [dispAddr 0], .go 0, .recv 0 laterDatagram, .accept 0]).disp.trace).any
        (fun e => match e with | .inn m => decide (m.packetId = 10) && m.reliable | .out _ => false) = true := by decide +kernel
    obtain ⟨e, he, hm⟩ := List.any_eq_true.mp h
    cases e with
    | out m => cases hm
    | inn m => exact ⟨m, he, by simpa using (Bool.and_eq_true_iff.mp hm).1, (Bool.and_eq_true_iff.mp hm).2⟩
  · unfold IsAckFor; decide +kernel

/-- **C90.** Only an id that comes too late can be lost.  Whatever other coroutines send, receive and acknowledge (any number of `process_acks` at the
same time): if, when a packet arrives whose id is queued, every `process_acks` that is busy with its circuit is still to read the rest of the queue, then
the id is, at any later time, acknowledged to the host of the circuit, in a packet being shown to the subscribers, or still queued; provided that nobody
removes that circuit, redirects its host, or tampers with the acknowledging packets. -/
theorem C90_not_lost (env : DEnv) (hosts : HostRef → Host) (before acts : List SAct) (r : HostRef) (dg : Bytes) (a : Addr) (x : Nat) (c : Circuit) :
    let s := runSwitching env (SState.init hosts) before
    let s1 := sstep env s (.recv r dg)
    let s' := runSwitching env s1 acts
    pending s1.disp a = pending s.disp a ++ [x] → s1.disp.circuits.get? a = some c → (s1.disp.hosts c.host).isOk = true →
    StillReading s a → AllHarmless env a c.host s1 acts →
    ∃ new, s'.disp.trace = s1.disp.trace ++ new ∧
      (AckedIn new (s1.disp.hosts c.host).addr x ∨ BeingAcked s' c.host x ∨ x ∈ pending s'.disp a) := by
  have hw := reachable_within env hosts before
  generalize runSwitching env (SState.init hosts) before = s at *
  intro s0 s1 s' hp hc hok hs ha
  subst s0
  have hq : Queued s1 c.host a x := recv_queued hw hp hs hc (by
    have e : s1.disp.hosts = s.disp.hosts := (receive_grows env s.disp r dg).2
    rw [← e]; exact hok)
  have h1 : Somewhere s1.disp.trace c.host (s1.disp.hosts c.host).addr a x s1 := ⟨rfl, [], by simp, .inr (.inr hq)⟩
  obtain ⟨_, new, e, hx⟩ := runSwitching_somewhere acts s1 h1 ha
  exact ⟨new, e, hx.imp_right (Or.imp_right (fun h => h.2.1))⟩

/-- … so that it has been acknowledged when no `process_acks` is in progress and nothing is queued for the circuit. -/
theorem C90_acknowledged_in_the_end (env : DEnv) (hosts : HostRef → Host) (before acts : List SAct) (r : HostRef) (dg : Bytes) (a : Addr) (x : Nat)
    (c : Circuit) :
    let s := runSwitching env (SState.init hosts) before
    let s1 := sstep env s (.recv r dg)
    let s' := runSwitching env s1 acts
    pending s1.disp a = pending s.disp a ++ [x] → s1.disp.circuits.get? a = some c → (s1.disp.hosts c.host).isOk = true →
    StillReading s a → AllHarmless env a c.host s1 acts → s'.acking = false → pending s'.disp a = [] →
    ∃ new, s'.disp.trace = s1.disp.trace ++ new ∧ AckedIn new (s1.disp.hosts c.host).addr x := by
  intro s s1 s' hp hc hok hs ha hak he
  obtain ⟨new, e, h | ⟨t, ht, hsome, _⟩ | h⟩ := C90_not_lost env hosts before acts r dg a x c hp hc hok hs ha
  · exact ⟨new, e, h⟩
  · have : s'.acking = true := List.any_eq_true.mpr ⟨t, ht, hsome⟩
    rw [this] at hak
    cases hak
  · change x ∈ pending s'.disp a at h
    rw [he] at h
    cases h

/-- Two `process_acks` are in progress, both busy with peer 1; the first one is to go on with peer 0, … -/
def readingBefore : List SAct := [.recv 1 demoDatagram, .acks [dispAddr 1, dispAddr 0], .recv 0 demoDatagram, .acks [dispAddr 1], .go 1]

/-- … when a further packet of peer 0 arrives. -/
def readingAfter : List SAct := [.start demoMessage 0 .plain, .edit 2 demoMessage, .accept 1, .go 1, .go 0, .setHost 1 (dispHosts 2), .accept 0, .go 1, .accept 1, .refuse 0]

example : let s := runSwitching dispEnv (SState.init dispHosts) readingBefore
    let s1 := sstep dispEnv s (.recv 0 laterDatagram)
    let s' := runSwitching dispEnv s1 readingAfter
    s.tasks.length = 2 ∧ s.acking = true ∧ pending s.disp (dispAddr 0) = [9] ∧ pending s1.disp (dispAddr 0) = [9, 10] ∧ StillReading s (dispAddr 0) ∧
    (∃ c, s1.disp.circuits.get? (dispAddr 0) = some c ∧ (s1.disp.hosts c.host).isOk = true ∧ AllHarmless dispEnv (dispAddr 0) c.host s1 readingAfter) ∧
    s'.acking = false ∧ pending s'.disp (dispAddr 0) = [] ∧
    (preparedMsgs s'.disp.trace).map (fun x => (x.1, x.2.packetId, x.2.name)) =
      [(dispAddr 1, 1, "PacketAck"), (dispAddr 0, 1, "Demo"), (dispAddr 1, 2, "PacketAck"), (dispAddr 0, 2, "PacketAck")] := by
  refine ⟨by decide +kernel, by decide +kernel, by decide +kernel, by decide +kernel, ?_, ⟨_, rfl, by decide +kernel, ?_⟩, by decide +kernel, by decide +kernel, by decide +kernel⟩
  · have h : (runSwitching dispEnv (SState.init dispHosts) readingBefore).tasks.all (fun t => t.after.all (fun p => decide (p.circuit ≠ .inMap (dispAddr 0)))) = true := by
      decide +kernel
    intro t ht p hp hc
    have := List.all_eq_true.mp h t ht
    rw [hp] at this
    simp [hc] at this
  · simp only [AllHarmless, readingAfter, Harmless, and_true]; decide +kernel

/-- … and two `process_acks` at the same time acknowledge the same packet twice. -/
theorem C90_acknowledged_twice : ∃ acts,
    let s := runSwitching dispEnv (SState.init dispHosts) acts
    s.tasks = [] ∧ pending s.disp (dispAddr 0) = [] ∧ (preparedMsgs s.disp.trace).map Prod.fst = [dispAddr 0, dispAddr 0] ∧
    ∀ x ∈ preparedMsgs s.disp.trace, IsAckFor x.2 [9] := by
  refine ⟨[.recv 0 demoDatagram, .acks [dispAddr 0], .acks [dispAddr 0], .go 1, .accept 1, .go 0, .accept 0], by decide +kernel, by decide +kernel, by decide +kernel, ?_⟩
  unfold IsAckFor; decide +kernel

end Pyogp
