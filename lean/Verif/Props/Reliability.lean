import Verif.Props.Circuit

/-! # C59–C61 and the id part of C17 -/

namespace Pyogp
open Spec

/-- **C17**, packet id: the id of a received message is bytes 1 to 4 of the datagram, most significant first. -/
theorem C17_header_id (env : DeserEnv) (st : DeserState) (dg : Bytes) (m : Message)
    (h : (deserialize env st dg).1 = .ok (some m)) : slice dg 1 5 = idBytes m.packetId ∧ m.packetId < 2 ^ 32 := deserialize_id h

example : (∃ m, (deserialize (dispEnv.deser []) {} demoDatagram).1 = .ok (some m) ∧ decide (m.packetId = 9) = true) ∧
    slice demoDatagram 1 5 = idBytes 9 := ⟨of_okSome (by decide +kernel), by decide⟩

/-! ## C59 -/

/-- **C59.** On a trusted circuit no datagram, of whatever message, is accepted or delivered (no packet is
ever marked trusted). -/
theorem C59_nothing_delivered (env : DEnv) (st : DState) (r : HostRef) (dg : Bytes) (c : Circuit)
    (hc : st.circuits.get? (st.hosts r).addr = some c) (ht : c.trusted = true) :
    (∀ m, (receiveCheck env st r dg).1 ≠ .ok (some m)) ∧
    ∀ m, .delivered m ∉ (receiveCheck env st r dg).2.trace.drop st.trace.length := by
  by_cases hne : dg = []
  · subst hne
    simp [receiveCheck]
  · have htr := C31_never_delivered env st r dg c hne hc ht
    constructor
    · have hlen : 0 < dg.length := List.length_pos_iff.mpr hne
      have hf : findCircuit st r = (st, c) := by unfold findCircuit getCircuit; rw [hc]
      intro m hm
      cases hd : (deserialize (env.deser st.trace) st.deser dg).1 with
      | error e =>
        unfold receiveCheck at hm
        simp only [hlen, if_true, hf, hd] at hm
        cases hm
      | ok m? =>
        cases m? with
        | none =>
          unfold receiveCheck at hm
          simp only [hlen, if_true, hf, hd] at hm
          split at hm <;> cases hm
        | some m' =>
          rw [(receive_trusted env st r dg m' c hd hc ht).1] at hm
          cases hm
    · intro m
      rw [htr]
      simp

/-- **C59, consequence:** this includes messages whose template is declared Trusted. -/
theorem C59_trusted_message_dropped :
    let dict : TemplateDict := { dispDict with byPair := [((.low, 300), { demoTemplate with trust := some .trusted })] }
    let env := { dispEnv with deser := fun _ => ⟨demoRt, dict, [], some ["Demo"], true⟩ }
    let st := runOps env (DState.init dispHosts) [.send demoMessage 0 .plain, .setTrusted (dispAddr 0) true]
    (receiveCheck env st 0 demoDatagram).1 = .ok none ∧
    okSome (receiveCheck env (runOps env (DState.init dispHosts) [.send demoMessage 0 .plain]) 0 demoDatagram).1 (fun m => m.name = "Demo") := by
  decide +kernel

/-! ## C60 -/

/-- The last packet id used for address `a`. -/
def lastOutOf (st : DState) (a : Addr) : Nat := ((st.circuits.get? a).map (·.lastOut)).getD 0

/-- Sends do not change which of the packets sent before wait for an acknowledgement. -/
theorem sends_keep_waiting (env : DEnv) (L : Addr → Nat) (W : Addr → Nat → Prop) :
    SendClosed env (fun _ _ => True) (fun s => ∀ a, L a ≤ lastOutOf s a ∧ ∀ id, id ≤ L a → (id ∈ waitingIds s a ↔ W a id)) := by
  refine ⟨fun s r v _ h => h, fun s m h => h, ?_⟩
  intro s m r mode h a
  have hg := transmit_get? env s m r mode a
  by_cases ha : (s.hosts r).addr = a
  · simp only [ha, if_true] at hg
    have hlast : lastOutOf (transmit env s m r mode).2 a = lastOutOf s a + 1 := by
      unfold lastOutOf
      rw [hg, Option.map_some, Option.getD_some, prepare_lastOut]
      cases s.circuits.get? a <;> rfl
    obtain ⟨h1, h2⟩ := h a
    refine ⟨by omega, fun id hid => ?_⟩
    rw [← h2 id hid]
    have e : waitingIds s a = ((s.circuits.get? a).getD { host := r }).unacked.keys := by
      unfold waitingIds
      cases s.circuits.get? a <;> rfl
    have e2 : lastOutOf s a = ((s.circuits.get? a).getD { host := r }).lastOut := by
      unfold lastOutOf
      cases s.circuits.get? a <;> rfl
    rw [e]
    unfold waitingIds
    rw [hg, prepare_eq]
    simp only
    split
    · simp only [Circuit.addReliablePacket, Circuit.nextPacketId, preparedMsg_id, Dict.keys_set]
      split
      · exact Iff.rfl
      · simp only [List.mem_append, List.mem_singleton]
        constructor
        · rintro (h | h)
          · exact h
          · omega
        · exact .inl
    · exact Iff.rfl
  · simp only [ha, if_false] at hg
    have := h a
    unfold lastOutOf waitingIds at this ⊢
    rw [hg]
    exact this

/-- **C60.** What acknowledges packets is the ack list appended to a datagram, whatever message it carries (blocks are not looked
at, not even those of PacketAck): when a datagram parses on an untrusted circuit, a packet that waited before waits afterwards exactly if it was not
sent to the datagram's sender or its id is not in that list. -/
theorem C60_appended_acks_only (env : DEnv) (hosts : HostRef → Host) (ops : List Op) (r : HostRef) (dg : Bytes) (m : Message)
    (hd : (deserialize (env.deser (runOps env (DState.init hosts) ops).trace) (runOps env (DState.init hosts) ops).deser dg).1 = .ok (some m))
    (ht : ∀ c, (runOps env (DState.init hosts) ops).circuits.get? ((runOps env (DState.init hosts) ops).hosts r).addr = some c →
      c.trusted = false) :
    let st := runOps env (DState.init hosts) ops
    ∀ a, ∀ id ∈ waitingIds st a, (id ∈ waitingIds (receiveCheck env st r dg).2 a ↔ ¬ (a = (st.hosts r).addr ∧ id ∈ m.acks)) := by
  have hi := reachable_inv env hosts ops
  generalize runOps env (DState.init hosts) ops = st at *
  intro st' a id hid
  have hle : ∀ a, ∀ id ∈ waitingIds st a, id ≤ lastOutOf st a := by
    intro a id h
    unfold waitingIds at h
    cases hc : st.circuits.get? a with
    | none => rw [hc] at h; cases h
    | some c =>
      rw [hc] at h
      have hci := hi.circ a c hc
      have := waiting_mem_outIds ((hci.waiting id).mp h)
      rw [hci.ids, List.mem_range'_1] at this
      unfold lastOutOf
      rw [hc]
      simp only [Option.map_some, Option.getD_some]
      omega
  have hlen : 0 < dg.length := by have := deserialize_long hd; omega
  obtain ⟨hh, htr, _, _, _, hde, hg, hc⟩ := findCircuit_fields st r
  have hct : (findCircuit st r).2.trusted = false := by
    rw [hc]
    cases hx : st.circuits.get? (st.hosts r).addr with
    | none => rfl
    | some c => exact ht c hx
  have hbase : ∀ s : DState, s.circuits = ((findCircuit st r).1.setCircuit (st.hosts r).addr ((findCircuit st r).2.handlePacket m)).circuits →
      ∀ a, lastOutOf st a ≤ lastOutOf s a ∧ ∀ id, id ≤ lastOutOf st a →
        (id ∈ waitingIds s a ↔ id ∈ waitingIds st a ∧ ¬ (a = (st.hosts r).addr ∧ id ∈ m.acks)) := by
    intro s hs a
    unfold lastOutOf waitingIds
    rw [hs]
    simp only [DState.setCircuit, Dict.get?_set]
    by_cases ha : (st.hosts r).addr = a
    · subst ha
      simp only [if_true, Option.map_some, Option.getD_some, true_and]
      obtain ⟨_, _, f1, _, _, f2, _⟩ := handlePacket_fields (findCircuit st r).2 m
      rw [f1, f2, hc]
      constructor
      · cases st.circuits.get? (st.hosts r).addr <;> simp
      · intro id _
        have key : ∀ d : Dict Nat Message, id ∈ Dict.keys (d.filter (fun q => q.1 ∉ m.acks)) ↔ id ∈ d.keys ∧ id ∉ m.acks := by
          intro d
          simp only [Dict.keys, List.mem_map, List.mem_filter, decide_eq_true_eq]
          constructor
          · rintro ⟨q, ⟨h1, h2⟩, rfl⟩; exact ⟨⟨q, h1, rfl⟩, h2⟩
          · rintro ⟨⟨q, h1, rfl⟩, h2⟩; exact ⟨q, ⟨h1, h2⟩, rfl⟩
        rw [key]
        cases st.circuits.get? (st.hosts r).addr with
        | none => simp [Dict.keys]
        | some c => rfl
    · have hne : ¬ (a = (st.hosts r).addr ∧ id ∈ m.acks) := fun h => ha h.1.symm
      simp only [ha, if_false, hg, false_and]
      refine ⟨Nat.le_refl _, fun id _ => ?_⟩
      have hne : ¬ (a = (st.hosts r).addr ∧ id ∈ m.acks) := fun h => ha h.1.symm
      simp [hne]
  have hfin : ∀ a, lastOutOf st a ≤ lastOutOf (receiveCheck env st r dg).2 a ∧ ∀ id, id ≤ lastOutOf st a →
        (id ∈ waitingIds (receiveCheck env st r dg).2 a ↔ id ∈ waitingIds st a ∧ ¬ (a = (st.hosts r).addr ∧ id ∈ m.acks)) := by
    unfold receiveCheck
    simp only [hlen, if_true, htr, hde, hd, hct, Bool.false_and, Bool.false_eq_true, if_false]
    split
    · generalize hst2 : DState.log _ (Ev.delivered m) = st2
      have h2 := hbase st2 (by rw [← hst2]; rfl)
      have h3 := handler_preserves (sends_keep_waiting env (lastOutOf st) (fun a id => id ∈ waitingIds st a ∧ ¬ (a = (st.hosts r).addr ∧ id ∈ m.acks)))
        (fun _ _ => Prog.mutates_any _) st2.trace m env.depth st2 h2
      split
      · rename_i he; rw [he] at h3; exact h3
      · rename_i he; rw [he] at h3; exact h3
    · exact hbase _ rfl
  rw [(hfin a).2 id (hle a id hid)]
  exact ⟨fun h => h.2, fun h => ⟨hid, h⟩⟩

/-- Packet 1 waits, the datagram's acks are 1 and 7. -/
example : let st := runOps dispEnv (DState.init dispHosts) [.send demoMessage 0 (.reliable 1), .send demoMessage 0 (.reliable 1)]
    (∃ m, (deserialize (dispEnv.deser st.trace) st.deser demoDatagram).1 = .ok (some m) ∧ decide (m.acks = [1, 7]) = true) ∧
    waitingIds st (dispAddr 0) = [1, 2] ∧ waitingIds (receiveCheck dispEnv st 0 demoDatagram).2 (dispAddr 0) = [2] ∧
    (st.circuits.get? (dispAddr 0)).map (·.trusted) = some false :=
  ⟨of_okSome (by decide +kernel), by decide +kernel, by decide +kernel, by decide +kernel⟩

/-- **C60.** A datagram that is skipped, malformed, empty or dropped acknowledges nothing: the same packets wait afterwards. -/
theorem C60_others_acknowledge_nothing (env : DEnv) (st : DState) (r : HostRef) (dg : Bytes)
    (hd : (∀ m, (deserialize (env.deser st.trace) st.deser dg).1 ≠ .ok (some m)) ∨
      ∃ c, st.circuits.get? (st.hosts r).addr = some c ∧ c.trusted = true) (a : Addr) :
    waitingIds (receiveCheck env st r dg).2 a = waitingIds st a := by
  obtain ⟨hh, htr, _, _, _, hde, hg, hc⟩ := findCircuit_fields st r
  have hfind : ∀ s : DState, s.circuits = (findCircuit st r).1.circuits → waitingIds s a = waitingIds st a := by
    intro s hs
    unfold waitingIds
    rw [hs, hg]
    by_cases h : (st.hosts r).addr = a ∧ st.circuits.get? a = none
    · rw [if_pos h, hc, h.1, h.2]; rfl
    · simp only [h, if_false]
  have hset : ∀ (s : DState) pid, s.circuits = ((findCircuit st r).1.setCircuit (st.hosts r).addr ((findCircuit st r).2.collectAck pid)).circuits →
      waitingIds s a = waitingIds st a := by
    intro s pid hs
    unfold waitingIds
    rw [hs]
    simp only [DState.setCircuit, Dict.get?_set]
    by_cases ha : (st.hosts r).addr = a
    · subst ha
      simp only [if_true, hc, Circuit.collectAck]
      cases st.circuits.get? (st.hosts r).addr <;> rfl
    · simp only [ha, if_false, hg, false_and]
  by_cases hne : dg = []
  · subst hne; rfl
  have hlen : 0 < dg.length := List.length_pos_iff.mpr hne
  cases hx : (deserialize (env.deser st.trace) st.deser dg).1 with
  | error e =>
    unfold receiveCheck
    simp only [hlen, if_true, htr, hde, hx]
    exact hfind _ rfl
  | ok m? =>
    cases m? with
    | none =>
      unfold receiveCheck
      simp only [hlen, if_true, htr, hde, hx]
      split
      · exact hfind _ rfl
      · exact hset _ _ rfl
    | some m =>
      rcases hd with h | ⟨c, hcc, htc⟩
      · exact absurd hx (h m)
      · unfold waitingIds
        rw [(receive_trusted env st r dg m c hx hcc htc).2.1]

/-- **C60, consequence:** packet 1 was sent reliably, a `PacketAck` for 1 is received, parsed and delivered, and packet 1 still waits. -/
theorem C60_packet_ack_ignored :
    let env := { dispEnv with deser := fun _ => ⟨demoRt, dispDict, [], some ["PacketAck"], true⟩ }
    let st := runOps env (DState.init dispHosts) [.send demoMessage 0 (.reliable 3)]
    let r := receiveCheck env st 0 [0, 0, 0, 0, 5, 0, 0xff, 0xff, 0xff, 0xfb, 1, 1, 0, 0, 0]
    okSome r.1 (fun m => m.name = "PacketAck" && decide (m.blocks.map (fun p => (p.1, p.2.map (fun b => b.getItem "ID"))) = [("Packets", [.ok (.num (.int 1))])])) ∧
    (r.2.circuits.get? (dispAddr 0)).map (fun c => c.unacked.keys) = some [1] := by decide +kernel

/-! ## C61 -/

/-- How often messages were delivered. -/
def deliveredCount (tr : List Ev) : Nat := (tr.filter fun | .delivered _ => true | _ => false).length

theorem deliveredCount_append (a b : List Ev) : deliveredCount (a ++ b) = deliveredCount a + deliveredCount b := by
  simp [deliveredCount]

/-- **C61.** A datagram that parses on an untrusted circuit is delivered exactly once, right after it was
accepted, whatever the subscribers do then. -/
theorem C61_delivered_once (env : DEnv) (hh : env.handlePackets = true) (st : DState) (r : HostRef) (dg : Bytes) (m : Message)
    (hd : (deserialize (env.deser st.trace) st.deser dg).1 = .ok (some m))
    (ht : ∀ c, st.circuits.get? (st.hosts r).addr = some c → c.trusted = false) :
    ∃ rest, (receiveCheck env st r dg).2.trace =
        st.trace ++ [.received (st.hosts r).addr dg, .parsed (st.hosts r).addr m, .delivered m] ++ rest ∧
      deliveredCount rest = 0 := by
  have hlen : 0 < dg.length := by have := deserialize_long hd; omega
  obtain ⟨_, htr, _, _, _, hde, _, hc⟩ := findCircuit_fields st r
  have hct : (findCircuit st r).2.trusted = false := by
    rw [hc]
    cases hx : st.circuits.get? (st.hosts r).addr with
    | none => rfl
    | some c => exact ht c hx
  have hq : ∀ s0 : DState, SendClosed env (fun _ _ => True) (fun s => ∃ rest, s.trace = s0.trace ++ rest ∧ deliveredCount rest = 0) := by
    intro s0
    refine ⟨fun s x v _ h => h, ?_, ?_⟩
    · rintro s m ⟨rest, h1, h2⟩
      exact ⟨rest ++ [.outgoing m], by simp only [DState.log, h1, List.append_assoc], by rw [deliveredCount_append, h2]; rfl⟩
    · rintro s m x mode ⟨rest, h1, h2⟩
      rw [(transmit_trace env s m x mode).1]
      refine ⟨rest ++ _, by rw [h1, List.append_assoc], ?_⟩
      rw [deliveredCount_append, h2]
      split <;> rfl
  unfold receiveCheck
  simp only [hlen, if_true, htr, hde, hd, hct, Bool.false_and, Bool.false_eq_true, if_false, hh]
  generalize hst2 : DState.log _ (Ev.delivered m) = st2
  have h2 : st2.trace = st.trace ++ [.received (st.hosts r).addr dg, .parsed (st.hosts r).addr m, .delivered m] := by
    rw [← hst2]; simp [DState.log, DState.setCircuit]
  obtain ⟨rest, hr1, hr2⟩ := handler_preserves (hq st2) (fun _ _ => Prog.mutates_any _) st2.trace m env.depth st2 ⟨[], by simp, rfl⟩
  refine ⟨rest, ?_, hr2⟩
  rw [← h2, ← hr1]
  split
  · rename_i he; rw [he]
  · rename_i he; rw [he]

/-- **C61, consequence:** retransmissions are delivered again: the same datagram (same packet id) is delivered every time. -/
theorem C61_retransmission_delivered :
    deliveredCount (runOps dispEnv (DState.init dispHosts) [.recv 0 demoDatagram, .recv 0 demoDatagram, .recv 0 demoDatagram]).trace = 3 := by
  decide +kernel

end Pyogp
