import Verif.Proofs.Receive
import Verif.Proofs.Send
import Verif.Props.Deserialize

/-!
# C20–C32: circuits and the UDP dispatcher

A *reachable* dispatcher is `runOps env (DState.init hosts) ops`: a new one after any sequence of sends, receives, ack
processings, host mutations, circuit removals and trust changes, with any subscribers and any socket behaviour.
-/

namespace Pyogp
open Spec

/-! ## A concrete dispatcher for the examples -/

/-- The real `PacketAck` template. -/
def ackTemplate : Template :=
  { name := "PacketAck", freq := .fixed, msgNum := 0xfb, msgNumHex := [0xff, 0xff, 0xff, 0xfb],
    blocks := [{ name := "Packets", blockType := .variable, vars := [⟨"ID", .u32, 4⟩] }] }

def dispDict : TemplateDict :=
  { byName := [("Demo", demoTemplate), ("PacketAck", ackTemplate)],
    byPair := [((.low, 300), demoTemplate), ((.fixed, 0xfb), ackTemplate)] }

def dispEnv : DEnv :=
  { ser := ⟨demoRt, dispDict, []⟩, deser := fun _ => ⟨demoRt, dispDict, [], some ["Demo"], true⟩,
    net := fun _ _ _ => true, handler := fun _ _ => .done }

/-- Host object `r` has port `13000 + r`. -/
def dispHosts : HostRef → Host := fun r => ⟨.str "sim", some (13000 + r)⟩
def dispAddr (r : HostRef) : Addr := (.str "sim", some (13000 + r))

/-- A reliable Demo packet with id 9, carrying acks for our packets 1 and 7. -/
def demoDatagram : Bytes :=
  [0x50, 0, 0, 0, 9, 0, 0xff, 0xff, 1, 44, 77, 0, 0, 0, 1, 0, 0] ++ [1, 0, 0, 0, 7, 0, 0, 0, 2]

def demoOps : List Op :=
  [.send demoMessage 0 (.reliable 3), .send demoMessage 1 .plain, .send demoMessage 0 .plain, .recv 0 demoDatagram,
   .send demoMessage 0 (.reliable 3), .recv 1 demoDatagram]

/-! ## C20 -/

/-- **C20.** After any history the ids given to packets for an address are `1, 2, …, n`. -/
theorem C20_ids_sequential (env : DEnv) (hosts : HostRef → Host) (ops : List Op) (a : Addr) :
    outIds (circuitHistory a (runOps env (DState.init hosts) ops).trace) =
      List.range' 1 (outIds (circuitHistory a (runOps env (DState.init hosts) ops).trace)).length := by
  have hi := reachable_inv env hosts ops
  generalize runOps env (DState.init hosts) ops = st at hi
  cases h : st.circuits.get? a with
  | none => rw [hi.absent a h]; rfl
  | some c => rw [(hi.circ a c h).ids]; simp

/-- The same, spelled out: the `k`-th id is `k`. -/
theorem C20_kth_id (env : DEnv) (hosts : HostRef → Host) (ops : List Op) (a : Addr) (k : Nat)
    (hk : k < (outIds (circuitHistory a (runOps env (DState.init hosts) ops).trace)).length) :
    (outIds (circuitHistory a (runOps env (DState.init hosts) ops).trace))[k]? = some (k + 1) := by
  rw [C20_ids_sequential]
  rw [List.getElem?_range' hk]; simp [Nat.add_comm]

/-- No id is given twice. -/
theorem C20_ids_distinct (env : DEnv) (hosts : HostRef → Host) (ops : List Op) (a : Addr) :
    (outIds (circuitHistory a (runOps env (DState.init hosts) ops).trace)).Nodup := by
  rw [C20_ids_sequential]; exact List.nodup_range' 1

example : outIds (circuitHistory (dispAddr 0) (runOps dispEnv (DState.init dispHosts) demoOps).trace) = [1, 2, 3] ∧
    outIds (circuitHistory (dispAddr 1) (runOps dispEnv (DState.init dispHosts) demoOps).trace) = [1] := by decide +kernel

/-! ## C21 -/

/-- **C21.** After any history the unacked packets of a circuit are exactly those sent reliably and not acknowledged since. -/
theorem C21_unacked_exact (env : DEnv) (hosts : HostRef → Host) (ops : List Op) (a : Addr) (c : Circuit)
    (hc : (runOps env (DState.init hosts) ops).circuits.get? a = some c) :
    (∀ id, id ∈ c.unacked.keys ↔ Waiting (circuitHistory a (runOps env (DState.init hosts) ops).trace) id) ∧
    c.unacked.keys.Nodup ∧ c.unackCount = c.unacked.keys.length := by
  have hi := (reachable_inv env hosts ops).circ a c hc
  refine ⟨hi.waiting, hi.ok.nodup, ?_⟩
  rw [hi.ok.count]; simp [Dict.keys]

example : ((runOps dispEnv (DState.init dispHosts) (demoOps.take 1)).circuits.get? (dispAddr 0)).map
      (fun c => (c.unacked.keys, c.unackCount)) = some ([1], 1) ∧
    ((runOps dispEnv (DState.init dispHosts) demoOps).circuits.get? (dispAddr 0)).map (fun c => (c.unacked.keys, c.unackCount)) =
      some ([3], 1) := by decide +kernel

/-! ## C22 -/

theorem del_del {α : Type} (d : Dict Nat α) (i j : Nat) : (d.del i).del j = (d.del j).del i := by
  unfold Dict.del
  rw [List.filter_filter, List.filter_filter]
  congr 1; funext p; rw [Bool.and_comm]

theorem has_del {α : Type} (d : Dict Nat α) (i j : Nat) : (d.del i).has j = (decide (j ≠ i) && d.has j) := by
  have : ∀ (x y : Bool), (x = true ↔ y = true) → x = y := by intro x y; cases x <;> cases y <;> simp
  apply this
  rw [has_iff, keys_del, List.mem_filter]
  simp only [Bool.and_eq_true, has_iff]
  rw [and_comm]

theorem ack_comm (c : Circuit) (i j : Nat) :
    (c.ackReliablePacket i).ackReliablePacket j = (c.ackReliablePacket j).ackReliablePacket i := by
  by_cases hij : i = j
  · rw [hij]
  · rw [ack_eq, ack_eq, ack_eq, ack_eq]
    simp only [has_del, del_del c.unacked j i, del_del c.finalRetry j i]
    have h1 : decide (j ≠ i) = true := by simp [Ne.symm hij]
    have h2 : decide (i ≠ j) = true := by simp [hij]
    simp only [h1, h2, Bool.true_and]
    congr 1 <;> omega

theorem ack_idem (c : Circuit) (i : Nat) : (c.ackReliablePacket i).ackReliablePacket i = c.ackReliablePacket i := by
  rw [ack_eq (c.ackReliablePacket i), ack_eq c]
  have h : ∀ {α : Type} (d : Dict Nat α), (d.del i).del i = d.del i := by
    intro α d; apply del_of_not_has; rw [has_del]; simp
  simp only [has_del, h]
  simp

theorem foldl_ack_perm {l l' : List Nat} (h : l.Perm l') :
    ∀ c : Circuit, l.foldl Circuit.ackReliablePacket c = l'.foldl Circuit.ackReliablePacket c := by
  induction h with
  | nil => intro c; rfl
  | cons x _ ih => intro c; exact ih _
  | swap x y l => intro c; simp only [List.foldl_cons]; rw [ack_comm]
  | trans _ _ ih1 ih2 => intro c; exact (ih1 c).trans (ih2 c)

theorem foldl_ack_absorb (l : List Nat) (i : Nat) (hi : i ∈ l) (c : Circuit) :
    (i :: l).foldl Circuit.ackReliablePacket c = l.foldl Circuit.ackReliablePacket c := by
  induction l generalizing c with
  | nil => cases hi
  | cons x l ih =>
    rcases List.mem_cons.mp hi with rfl | h
    · simp only [List.foldl_cons, ack_idem]
    · have := ih h (c.ackReliablePacket x)
      simp only [List.foldl_cons] at this ⊢
      rw [ack_comm, this]

/-- **C22.** Acknowledging twice is acknowledging once. -/
theorem C22_idempotent (c : Circuit) (id : Nat) : (c.ackReliablePacket id).ackReliablePacket id = c.ackReliablePacket id := ack_idem c id

/-- An id not waiting changes nothing. -/
theorem C22_unknown_id (c : Circuit) (id : Nat) (h1 : id ∉ c.unacked.keys) (h2 : id ∉ c.finalRetry.keys) : c.ackReliablePacket id = c := by
  have e1 : c.unacked.has id = false := by
    cases h : c.unacked.has id with
    | false => rfl
    | true => exact absurd ((has_iff _ _).mp h) h1
  have e2 : c.finalRetry.has id = false := by
    cases h : c.finalRetry.has id with
    | false => rfl
    | true => exact absurd ((has_iff _ _).mp h) h2
  rw [ack_eq]
  simp [e1, e2, del_of_not_has]

/-- Two ack lists with the same ids (in any order, with any repetitions) leave the same circuit. -/
theorem C22_only_the_set_matters (l l' : List Nat) (h : ∀ i, i ∈ l ↔ i ∈ l') (c : Circuit) :
    l.foldl Circuit.ackReliablePacket c = l'.foldl Circuit.ackReliablePacket c := by
  have absorb : ∀ (a b : List Nat), (∀ i ∈ a, i ∈ b) →
      (a ++ b).foldl Circuit.ackReliablePacket c = b.foldl Circuit.ackReliablePacket c := by
    intro a b hab
    induction a with
    | nil => rfl
    | cons x a ih =>
      rw [List.cons_append, foldl_ack_absorb _ _ (List.mem_append_right _ (hab x List.mem_cons_self)),
        ih (fun i hi => hab i (List.mem_cons_of_mem _ hi))]
  rw [← absorb l' l (fun i hi => (h i).mpr hi), ← absorb l l' (fun i hi => (h i).mp hi)]
  exact foldl_ack_perm List.perm_append_comm c

/-- The same for whole received packets: the order and repetition of the acks they carry do not matter. -/
theorem C22_packet (c : Circuit) (m m' : Message) (h : ∀ i, i ∈ m.acks ↔ i ∈ m'.acks) (hr : m.reliable = m'.reliable)
    (hp : m.packetId = m'.packetId) : c.handlePacket m = c.handlePacket m' := by
  unfold Circuit.handlePacket
  simp only [C22_only_the_set_matters m.acks m'.acks h c, hr, hp]

/-- The number of unacked packets is never negative. -/
theorem C22_count_nonneg (env : DEnv) (hosts : HostRef → Host) (ops : List Op) (a : Addr) (c : Circuit)
    (hc : (runOps env (DState.init hosts) ops).circuits.get? a = some c) : 0 ≤ c.unackCount ∧ 0 ≤ c.finalCount := by
  have hi := (reachable_inv env hosts ops).circ a c hc
  rw [hi.ok.count, hi.ok.finalCount]; omega

example : let c : Circuit := { host := 0, unacked := [(1, demoMessage), (2, demoMessage), (5, demoMessage)], unackCount := 3 }
    [5, 1, 9].foldl Circuit.ackReliablePacket c = [1, 9, 5, 1].foldl Circuit.ackReliablePacket c ∧
    ([5, 1, 9].foldl Circuit.ackReliablePacket c).unacked.keys = [2] := by decide +kernel

/-! ## C23 -/

/-- **C23, parsed.** A datagram that parses on an untrusted circuit queues its id exactly when the reliable flag
(`0x40`) is set, once, at the end, and for its sender only – whatever the subscribers do. -/
theorem C23_parsed (env : DEnv) (st : DState) (r : HostRef) (dg : Bytes) (m : Message) (flags : UInt8)
    (hd : (deserialize (env.deser st.trace) st.deser dg).1 = .ok (some m)) (hf : dg.head? = some flags)
    (ht : ∀ c, st.circuits.get? (st.hosts r).addr = some c → c.trusted = false) :
    ∃ id, id < 2 ^ 32 ∧ slice dg 1 5 = idBytes id ∧ ∀ a, pending (receiveCheck env st r dg).2 a =
      pending st a ++ (if a = (st.hosts r).addr ∧ flags.toNat &&& 0x40 ≠ 0 then [id] else []) := by
  obtain ⟨h1, h2⟩ := deserialize_id hd
  refine ⟨m.packetId, h2, h1, ?_⟩
  intro a
  rw [receive_parsed env st r dg m hd ht a]
  obtain ⟨t, flags', off, buf, buf', raw, post, bss, h0, hrest⟩ := C17_message_is_exact_parse _ _ _ _ hd
  rw [hf] at h0
  cases h0
  have hr := hrest.2.2.2.2.2.2.2.2.2.2.2.2
  rw [hr]
  simp

example : (∃ m, (deserialize (dispEnv.deser []) {} demoDatagram).1 = .ok (some m) ∧ decide (m.packetId = 9) = true) ∧
    demoDatagram.head? = some 0x50 ∧ (0x50 : UInt8).toNat &&& 0x40 ≠ 0 ∧
    pending (receiveCheck dispEnv (DState.init dispHosts) 0 demoDatagram).2 (dispAddr 0) = [9] :=
  ⟨of_okSome (by decide +kernel), rfl, by decide, by decide +kernel⟩

/-- **C23, skipped.** A datagram that was skipped is always queued, whatever its flags, also on a trusted circuit. -/
theorem C23_unparsed_always_queued (env : DEnv) (st : DState) (r : HostRef) (dg : Bytes)
    (hd : (deserialize (env.deser st.trace) st.deser dg).1 = .ok none) :
    ∃ id, id < 2 ^ 32 ∧ slice dg 1 5 = idBytes id ∧ ∀ a,
      pending (receiveCheck env st r dg).2 a = pending st a ++ (if a = (st.hosts r).addr then [id] else []) := by
  obtain ⟨id, h1, h2, _, h3⟩ := receive_unparsed env st r dg hd
  exact ⟨id, h1, h2, h3⟩

/-- **C23, consequence:** a skipped datagram without the reliable flag is queued as well. -/
theorem C23_unreliable_skipped_is_queued :
    (deserialize (dispEnv.deser []) {} [0, 0, 0, 0, 9, 0, 0xff, 0xff, 0xff, 0xfb, 1, 3, 0, 0, 0]).1 = .ok none ∧
    pending (receiveCheck dispEnv (DState.init dispHosts) 0 [0, 0, 0, 0, 9, 0, 0xff, 0xff, 0xff, 0xfb, 1, 3, 0, 0, 0]).2 (dispAddr 0) =
      [9] := by decide +kernel

/-- **C23, malformed.** A datagram `receive_check` raises on before parsing is complete queues nothing. -/
theorem C23_malformed_not_queued (env : DEnv) (st : DState) (r : HostRef) (dg : Bytes) (e : Exc)
    (hd : (deserialize (env.deser st.trace) st.deser dg).1 = .error e) (a : Addr) :
    pending (receiveCheck env st r dg).2 a = pending st a := by
  obtain ⟨hh, htr, _, _, _, hde, hg, hc⟩ := findCircuit_fields st r
  unfold receiveCheck
  split
  · simp only [htr, hde, hd]
    exact pending_find st r a
  · rfl

/-! ## C24 -/

/-- All circuits have valid hosts. -/
def HostsValid (st : DState) : Prop := ∀ a c, st.circuits.get? a = some c → (st.hosts c.host).isOk = true

/-- The acknowledgements sent for the queued ids: for every circuit the queue split into non-empty parts of at most 251 ids, one
`PacketAck` for each part. -/
def Acknowledges (st : DState) (order : List Addr) (sel : List (Addr × Message)) : Prop :=
  ∃ parts : Addr → List (List Nat),
    (∀ a ∈ order, (parts a).flatten = pending st a ∧ ∀ p ∈ parts a, p ≠ [] ∧ p.length ≤ 251) ∧
    List.Forall₂ (fun p (x : Addr × Message) => IsAckFor x.2 p) (order.flatMap parts) sel

theorem keys_get? {κ α : Type} [DecidableEq κ] {d : Dict κ α} {k : κ} (h : k ∈ d.keys) : ∃ v, d.get? k = some v := by
  cases hg : d.get? k with
  | some v => exact ⟨v, rfl⟩
  | none => exact absurd h ((Dict.get?_eq_none_iff d k).mp hg)

theorem processAcks_ok {env : DEnv} {st st' : DState} (hi : Inv st) {order : List Addr} (hp : order.Perm st.circuits.keys)
    (hv : HostsValid st) (ho : OutgoingKeepHosts env st.hosts) (h : processAcks env st order = (.ok (), st')) :
    ∃ (parts : Addr → List (List Nat)) (sel : List (Addr × Message)) (new : List Ev),
        (∀ a ∈ order, (parts a).flatten = pending st a ∧ ∀ p ∈ parts a, p ≠ [] ∧ p.length ≤ 251) ∧
        st'.trace = st.trace ++ new ∧ sel.Sublist (preparedMsgs new) ∧ (env.handleOutgoing = false → sel = preparedMsgs new) ∧
        List.Forall₂ (fun (d : Addr × List Nat) (x : Addr × Message) => x.1 = ackDest st d.1 ∧ IsAckFor x.2 d.2)
          (order.flatMap fun a => (parts a).map fun p => (a, p)) sel ∧
        (∀ a, pending st' a = []) := by
  unfold processAcks at h
  have hr : resendAll st = .ok () := by
    unfold resendAll; rw [hi.noRetry]; rfl
  rw [hr] at h
  obtain ⟨parts, sel, new, h1, h2, h3, h4, h5, h6⟩ := sendAcks_ok ho order st st' rfl (hp.nodup_iff.mpr hi.nodup) (by
    intro a ha
    obtain ⟨c, hc⟩ := keys_get? (hp.mem_iff.mp ha)
    exact ⟨c, hc, hv a c hc⟩) h
  refine ⟨parts, sel, new, h1, h2, h3, h4, h5, ?_⟩
  intro a
  rw [h6]
  split
  · rfl
  · rename_i hn
    unfold pending
    have : st.circuits.get? a = none := (Dict.get?_eq_none_iff _ _).mpr (fun hk => hn (hp.mem_iff.mpr hk))
    rw [this]

theorem forall₂_strip {st : DState} {order : List Addr} {parts : Addr → List (List Nat)} {sel : List (Addr × Message)}
    (h : List.Forall₂ (fun (d : Addr × List Nat) (x : Addr × Message) => x.1 = ackDest st d.1 ∧ IsAckFor x.2 d.2)
          (order.flatMap fun a => (parts a).map fun p => (a, p)) sel) :
    List.Forall₂ (fun p (x : Addr × Message) => IsAckFor x.2 p) (order.flatMap parts) sel := by
  have e : order.flatMap parts = (order.flatMap fun a => (parts a).map fun p => (a, p)).map Prod.snd := by
    rw [List.map_flatMap]
    apply List.flatMap_congr
    intro a _
    rw [List.map_map]
    exact (List.map_id _).symm
  rw [e, List.forall₂_map_left_iff]
  exact forall₂_mem_imp h (fun _ _ _ hx => hx.2)

/-- **C24.** In any reachable state, with any iteration order of the circuits: `process_acks` returns, the packets it sends are
exactly the acknowledgements of the queued ids, and afterwards no ids are queued.  (Default setting: subscribers do not see
outgoing packets; 0 is not the recursion limit.) -/
theorem C24_acks_exact (env : DEnv) (hb : env.handleOutgoing = false) (hd : 0 < env.depth) (hosts : HostRef → Host) (ops : List Op)
    (order : List Addr) (hp : order.Perm (runOps env (DState.init hosts) ops).circuits.keys)
    (hv : HostsValid (runOps env (DState.init hosts) ops)) :
    let st := runOps env (DState.init hosts) ops
    (processAcks env st order).1 = .ok () ∧
    (∃ new, (processAcks env st order).2.trace = st.trace ++ new ∧ Acknowledges st order (preparedMsgs new)) ∧
    ∀ a, pending (processAcks env st order).2 a = [] := by
  have hi := reachable_inv env hosts ops
  generalize runOps env (DState.init hosts) ops = st at *
  have ho : OutgoingKeepHosts env st.hosts := by intro h; rw [hb] at h; cases h
  have hok : ∃ st', processAcks env st order = (.ok (), st') := by
    unfold processAcks
    have hr : resendAll st = .ok () := by unfold resendAll; rw [hi.noRetry]; rfl
    rw [hr]
    obtain ⟨st', h, _⟩ := sendAcks_noerr hb hd order st
    exact ⟨st', h⟩
  obtain ⟨st', hst'⟩ := hok
  obtain ⟨parts, sel, new, h1, h2, h3, h4, h5, h6⟩ := processAcks_ok hi hp hv ho hst'
  simp only [hst']
  refine ⟨trivial, ⟨new, h2, parts, h1, ?_⟩, h6⟩
  rw [← h4 hb]
  exact forall₂_strip h5

/-- **C24** with subscribers of outgoing packets: they may send other packets in between (but not redirect hosts), and if
`process_acks` returns normally, the acknowledgements of the queued ids are among the packets sent, in order, and nothing is
queued any more. -/
theorem C24_with_outgoing_subscribers (env : DEnv) (hosts : HostRef → Host) (ops : List Op)
    (order : List Addr) (hp : order.Perm (runOps env (DState.init hosts) ops).circuits.keys)
    (hv : HostsValid (runOps env (DState.init hosts) ops))
    (ho : OutgoingKeepHosts env (runOps env (DState.init hosts) ops).hosts)
    (h : (processAcks env (runOps env (DState.init hosts) ops) order).1 = .ok ()) :
    let st := runOps env (DState.init hosts) ops
    (∃ new sel, (processAcks env st order).2.trace = st.trace ++ new ∧ sel.Sublist (preparedMsgs new) ∧ Acknowledges st order sel) ∧
    ∀ a, pending (processAcks env st order).2 a = [] := by
  have hi := reachable_inv env hosts ops
  generalize runOps env (DState.init hosts) ops = st at *
  obtain ⟨parts, sel, new, h1, h2, h3, h4, h5, h6⟩ := processAcks_ok hi hp hv ho (Prod.ext h rfl)
  exact ⟨⟨new, sel, h2, h3, parts, h1, forall₂_strip h5⟩, h6⟩

/-- Without that proviso: an exception of a subscriber of outgoing packets makes `process_acks` raise and leaves the queue in place. -/
theorem C24_exception_keeps_queue :
    let env := { dispEnv with handleOutgoing := true, handler := fun _ m => if m.name = "PacketAck" then .raise .typeError else .done }
    let st := runOps env (DState.init dispHosts) [.recv 0 demoDatagram]
    (processAcks env st [dispAddr 0]).1 = .error .typeError ∧ pending (processAcks env st [dispAddr 0]).2 (dispAddr 0) = [9] := by
  decide +kernel

example : let st := runOps dispEnv (DState.init dispHosts) demoOps
    (processAcks dispEnv st [dispAddr 1, dispAddr 0]).1 = .ok () ∧ st.circuits.keys = [dispAddr 0, dispAddr 1] ∧
    (∀ p ∈ st.circuits, (st.hosts p.2.host).isOk = true) ∧ pending st (dispAddr 0) = [9] ∧ pending st (dispAddr 1) = [9] ∧
    (preparedMsgs ((processAcks dispEnv st [dispAddr 1, dispAddr 0]).2.trace.drop st.trace.length)).map (fun x => (x.1, x.2.name, x.2.packetId)) =
      [(dispAddr 1, "PacketAck", 2), (dispAddr 0, "PacketAck", 4)] ∧
    (sentDatagrams ((processAcks dispEnv st [dispAddr 1, dispAddr 0]).2.trace.drop st.trace.length)).map (·.2) =
      [[0, 0, 0, 0, 2, 0, 0xff, 0xff, 0xff, 0xfb, 1, 9, 0, 0, 0], [0, 0, 0, 0, 4, 0, 0xff, 0xff, 0xff, 0xfb, 1, 9, 0, 0, 0]] := by
  decide +kernel

/-! ## C25 -/

/-- As long as every host object keeps its address, circuits stay registered under the address of their host object. -/
theorem aligned_closed (env : DEnv) (H : HostRef → Host) :
    Closed env (fun r v => v.addr = (H r).addr)
      (fun st => (∀ r, (st.hosts r).addr = (H r).addr) ∧ ∀ a c, st.circuits.get? a = some c → (H c.host).addr = a) := by
  have hset : ∀ (st : DState) (a : Addr) (c c' : Circuit), (∀ a c, st.circuits.get? a = some c → (H c.host).addr = a) →
      st.circuits.get? a = some c → c'.host = c.host →
      ∀ b d, (st.setCircuit a c').circuits.get? b = some d → (H d.host).addr = b := by
    intro st a c c' h hc he b d hd
    simp only [DState.setCircuit, Dict.get?_set] at hd
    split at hd
    · rename_i hab; subst hab; cases hd; rw [he]; exact h _ _ hc
    · exact h _ _ hd
  have hfind : ∀ (st : DState) (r : HostRef), (∀ r, (st.hosts r).addr = (H r).addr) → (∀ a c, st.circuits.get? a = some c → (H c.host).addr = a) →
      ∀ b d, (findCircuit st r).1.circuits.get? b = some d → (H d.host).addr = b := by
    intro st r hh h b d hd
    obtain ⟨_, _, _, _, _, _, hg, hc⟩ := findCircuit_fields st r
    rw [hg] at hd
    split at hd
    · rename_i hb
      cases hd
      rw [hc, hb.1, hb.2, ← hb.1, hh]; rfl
    · exact h _ _ hd
  refine { hosts := ?_, outgoing := ?_, transmit := ?_, received := ?_, collect := ?_, parsed := ?_, delivered := ?_, cleared := ?_, remove := ?_, trust := ?_ }
  · rintro st r v hv ⟨h1, h2⟩
    refine ⟨?_, h2⟩
    intro x
    simp only [DState.setHost]
    split
    · rename_i hx; subst hx; exact hv
    · exact h1 x
  · rintro st m h; exact h
  · rintro st m r mode ⟨h1, h2⟩
    refine ⟨by rw [(transmit_circ env st m r mode).2.1]; exact h1, ?_⟩
    intro b d hd
    rw [transmit_get?] at hd
    split at hd
    · rename_i hb
      cases hd
      rw [prepare_host]
      cases hx : st.circuits.get? b with
      | none => rw [← hb, h1]; rfl
      | some c => exact h2 b c hx
    · exact h2 b d hd
  · rintro st r dg ⟨h1, h2⟩
    refine ⟨?_, hfind st r h1 h2⟩
    simp only [DState.log, (findCircuit_fields st r).1]
    exact h1
  · rintro st a c pid ⟨h1, h2⟩ hc _; exact ⟨h1, hset st a c _ h2 hc rfl⟩
  · rintro st a c m ⟨h1, h2⟩ hc _; exact ⟨h1, hset st a c _ h2 hc (handlePacket_fields c m).1⟩
  · rintro st m h; exact h
  · rintro st a c ⟨h1, h2⟩ hc; exact ⟨h1, hset st a c _ h2 hc rfl⟩
  · rintro st r ⟨h1, h2⟩
    refine ⟨h1, ?_⟩
    intro b d hd
    simp only [DState.log, removeCircuitData] at hd
    split at hd
    · rw [Dict.get?_del] at hd
      split at hd
      · cases hd
      · exact h2 b d hd
    · exact h2 b d hd
  · rintro st a c x ⟨h1, h2⟩ hc; exact ⟨h1, hset st a c _ h2 hc rfl⟩

/-- **C25.** If every host object keeps its address (one `Host` per peer), the acknowledgements of a circuit
go to the address under which it is registered. -/
theorem C25_right_peer (env : DEnv) (hosts : HostRef → Host) (ops : List Op)
    (hkeep : ∀ op ∈ ops, ∀ r v, op = .setHost r v → v.addr = (hosts r).addr)
    (hhand : ∀ tr m, (env.handler tr m).Mutates (fun r v => v.addr = (hosts r).addr))
    (order : List Addr) (hp : order.Perm (runOps env (DState.init hosts) ops).circuits.keys)
    (hv : HostsValid (runOps env (DState.init hosts) ops))
    (ho : OutgoingKeepHosts env (runOps env (DState.init hosts) ops).hosts)
    (h : (processAcks env (runOps env (DState.init hosts) ops) order).1 = .ok ()) :
    let st := runOps env (DState.init hosts) ops
    ∃ (parts : Addr → List (List Nat)) (new : List Ev) (sel : List (Addr × Message)),
      (∀ a ∈ order, (parts a).flatten = pending st a) ∧
      (processAcks env st order).2.trace = st.trace ++ new ∧ sel.Sublist (preparedMsgs new) ∧
      (env.handleOutgoing = false → sel = preparedMsgs new) ∧
      List.Forall₂ (fun (d : Addr × List Nat) (x : Addr × Message) => x.1 = d.1 ∧ IsAckFor x.2 d.2)
        (order.flatMap fun a => (parts a).map fun p => (a, p)) sel := by
  have hi := reachable_inv env hosts ops
  have hal := runOps_preserves (aligned_closed env hosts) hhand ops hkeep (DState.init hosts) ⟨fun _ => rfl, by intro a c h; cases h⟩
  generalize runOps env (DState.init hosts) ops = st at *
  obtain ⟨parts, sel, new, h1, h2, h3, h4, h5, h6⟩ := processAcks_ok hi hp hv ho (Prod.ext h rfl)
  refine ⟨parts, new, sel, fun a ha => (h1 a ha).1, h2, h3, h4, ?_⟩
  refine forall₂_mem_imp h5 ?_
  rintro ⟨a, p⟩ x hx ⟨e1, e2⟩
  refine ⟨?_, e2⟩
  rw [e1]
  unfold ackDest
  cases hx : st.circuits.get? a with
  | none => rfl
  | some c => simp only; rw [hal.1]; exact hal.2 a c hx

example : (∀ op ∈ demoOps, ∀ r v, op = .setHost r v → v.addr = (dispHosts r).addr) := by
  intro op hop r v he
  subst he
  simp [demoOps] at hop

/-- **C25, consequence:** the client passes its one `sender` object, overwritten for every datagram, so the second circuit's
peer gets the acknowledgements of both. -/
theorem C25_shared_sender :
    let peerA : Host := ⟨.str "10.0.0.1", some 13000⟩
    let peerB : Host := ⟨.str "10.0.0.2", some 13000⟩
    let st := runOps dispEnv (DState.init dispHosts)
      [.setHost 0 peerA, .recv 0 demoDatagram, .setHost 0 peerB, .recv 0 demoDatagram]
    pending st peerA.addr = [9] ∧ pending st peerB.addr = [9] ∧ st.circuits.keys = [peerA.addr, peerB.addr] ∧
    (processAcks dispEnv st [peerA.addr, peerB.addr]).1 = .ok () ∧
    (preparedMsgs ((processAcks dispEnv st [peerA.addr, peerB.addr]).2.trace.drop st.trace.length)).map (·.1) =
      [peerB.addr, peerB.addr] ∧
    (∀ a, pending (processAcks dispEnv st [peerA.addr, peerB.addr]).2 a = []) := by
  refine ⟨by decide +kernel, by decide +kernel, by decide +kernel, by decide +kernel, by decide +kernel, ?_⟩
  intro a
  have h : (processAcks dispEnv (runOps dispEnv (DState.init dispHosts)
      [.setHost 0 ⟨.str "10.0.0.1", some 13000⟩, .recv 0 demoDatagram, .setHost 0 ⟨.str "10.0.0.2", some 13000⟩, .recv 0 demoDatagram])
      [(.str "10.0.0.1", some 13000), (.str "10.0.0.2", some 13000)]).2.circuits.all (fun p => p.2.acks.isEmpty) = true := by decide +kernel
  generalize hst : (processAcks dispEnv (runOps dispEnv (DState.init dispHosts)
      [.setHost 0 ⟨.str "10.0.0.1", some 13000⟩, .recv 0 demoDatagram, .setHost 0 ⟨.str "10.0.0.2", some 13000⟩, .recv 0 demoDatagram])
      [(.str "10.0.0.1", some 13000), (.str "10.0.0.2", some 13000)]).2 = st at h
  show pending (processAcks dispEnv (runOps dispEnv (DState.init dispHosts)
      [.setHost 0 ⟨.str "10.0.0.1", some 13000⟩, .recv 0 demoDatagram, .setHost 0 ⟨.str "10.0.0.2", some 13000⟩, .recv 0 demoDatagram])
      [(.str "10.0.0.1", some 13000), (.str "10.0.0.2", some 13000)]).2 a = []
  rw [hst]
  unfold pending
  split
  · rename_i c hc
    have hm : (a, c) ∈ st.circuits := Dict.mem_of_get? hc
    rw [List.all_eq_true] at h
    exact List.isEmpty_iff.mp (h _ hm)
  · rfl

/-! ## C26 -/

/-- **C26, payload.** Pending acks do not change the payload – only the ACK bit (`0x10`) of the flag byte of the datagram differs from what
would be sent with nothing pending, exactly if something is pending and the message is not a `PacketAck`.  But that also shows that the
ids are not in the datagram. -/
theorem C26_payload_unaffected (env : SerEnv) (c : Circuit) (m : Message) (mode : SendMode) (dg dg' : Bytes)
    (h : serialize env (mode.prepare c m).2 = .ok (some dg)) (h' : serialize env (mode.prepare { c with acks := [] } m).2 = .ok (some dg')) :
    ∃ f rest, dg' = f :: rest ∧ f.toNat &&& 0x10 = 0 ∧
      dg = (if c.acks ≠ [] ∧ m.name ≠ "PacketAck" then f ||| 0x10 else f) :: rest := by
  rw [prepare_eq] at h h'
  have e1 := serialize_ok' h (preparedMsg_flags_lt c m mode)
  have e2 := serialize_ok' h' (preparedMsg_flags_lt _ m mode)
  obtain ⟨t, pid, body, ht, hpid, hb, rfl⟩ := e1
  obtain ⟨t', pid', body', ht', hpid', hb', rfl⟩ := e2
  simp only [preparedMsg_name, preparedMsg_id] at ht ht' hpid hpid'
  rw [ht] at ht'
  cases ht'
  rw [hpid] at hpid'
  cases hpid'
  have hbl : buildBlocks env.rt (preparedMsg c m mode.flag mode.retries) t.blocks =
      buildBlocks env.rt (preparedMsg { c with acks := [] } m mode.flag mode.retries) t.blocks :=
    buildBlocks_congr (fun tb _ => by unfold buildBlock Message.getBlock; rw [preparedMsg_blocks, preparedMsg_blocks])
  rw [hbl, hb'] at hb
  cases hb
  refine ⟨_, _, rfl, ?_, ?_⟩
  · cases mode <;> simp [preparedMsg, SendMode.flag, flagReliable, flagResent]
  · by_cases hc : c.acks ≠ [] ∧ m.name ≠ "PacketAck"
    · have hc' : 0 < c.acks.length ∧ m.name ≠ "PacketAck" := ⟨List.length_pos_iff.mpr hc.1, hc.2⟩
      rw [if_pos hc]
      cases mode <;> simp [preparedMsg, hc', SendMode.flag, flagReliable, flagResent, flagAck] <;> decide
    · have hc' : ¬ (0 < c.acks.length ∧ m.name ≠ "PacketAck") := fun h => hc ⟨List.length_pos_iff.mp h.1, h.2⟩
      rw [if_neg hc]
      simp only [preparedMsg, if_neg hc', List.length_nil, Nat.lt_irrefl, false_and, if_false]

/-- **C26, ids.** The datagram is the same whatever ids are put on the message. -/
theorem C26_acks_never_written (env : SerEnv) (m : Message) (ids : List Nat) (n : Nat) :
    serialize env { m with acks := ids, numAcks := n } = serialize env m := by
  have hb : ∀ tbs : List TBlock, buildBlocks env.rt { m with acks := ids, numAcks := n } tbs = buildBlocks env.rt m tbs :=
    fun tbs => buildBlocks_congr (fun _ _ => rfl)
  unfold serialize
  simp only [hb]

/-- **C26, consequence:** with ids 9 and 9 waiting to be acknowledged the datagram has the ACK flag (`0x10`) but neither the ids nor their
count at its end, and a receiver takes the last bytes of the payload for them: it gets another message, with an ack for
a packet that was never received. -/
theorem C26_flag_without_ids :
    let st := runOps dispEnv (DState.init dispHosts) [.recv 0 demoDatagram, .recv 0 demoDatagram]
    let st' := step dispEnv st (.send demoMessage 0 .plain)
    pending st (dispAddr 0) = [9, 9] ∧
    sentDatagrams (st'.trace.drop st.trace.length) =
      [(dispAddr 0, [0x10, 0, 0, 0, 1, 0, 0xff, 0xff, 1, 44, 77, 0, 0, 0, 3, 104, 105, 0, 2, 1, 0, 2, 0])] ∧
    (∀ pre, [0x10, 0, 0, 0, 1, 0, 0xff, 0xff, 1, 44, 77, 0, 0, 0, 3, 104, 105, 0, 2, 1, 0, 2, 0] ≠ pre ++ ackTrailer 0x10 [9, 9]) := by
  refine ⟨by decide +kernel, by decide +kernel, ?_⟩
  intro pre h
  have := congrArg List.getLast? h
  have e : (ackTrailer 0x10 [9, 9]).getLast? = some 2 := by decide
  rw [List.getLast?_append, e] at this
  have e' : ([0x10, 0, 0, 0, 1, 0, 0xff, 0xff, 1, 44, 77, 0, 0, 0, 3, 104, 105, 0, 2, 1, 0, 2, 0] : Bytes).getLast? = some 0 := by decide
  rw [e'] at this
  cases this

/-! ## C27 -/

/-- **C27.** `process_acks` never sends anything but acknowledgements, in any reachable state – no packet is ever sent again. -/
theorem C27_nothing_retransmitted (env : DEnv) (hb : env.handleOutgoing = false) (hd : 0 < env.depth) (hosts : HostRef → Host) (ops : List Op)
    (order : List Addr) (hp : order.Perm (runOps env (DState.init hosts) ops).circuits.keys)
    (hv : HostsValid (runOps env (DState.init hosts) ops)) :
    let st := runOps env (DState.init hosts) ops
    ∃ new, (processAcks env st order).2.trace = st.trace ++ new ∧ ∀ a m, .prepared a m ∈ new → m.name = "PacketAck" := by
  obtain ⟨_, ⟨new, h1, parts, _, h3⟩, _⟩ := C24_acks_exact env hb hd hosts ops order hp hv
  refine ⟨new, h1, ?_⟩
  intro a m hm
  have hmem : (a, m) ∈ preparedMsgs new := List.mem_filterMap.mpr ⟨_, hm, rfl⟩
  generalize order.flatMap parts = ps at h3
  generalize preparedMsgs new = l at h3 hmem
  clear h1 hm
  induction h3 with
  | nil => cases hmem
  | cons hx _ ih =>
    rcases List.mem_cons.mp hmem with h | h
    · rw [← h] at hx; exact hx.1
    · exact ih h

/-- **C27, concretely:** a packet sent reliably with 3 retries is unacknowledged, `process_acks` is called three times, and only one datagram
was ever sent. -/
theorem C27_three_passes :
    let st := runOps dispEnv (DState.init dispHosts)
      [.send demoMessage 0 (.reliable 3), .processAcks [dispAddr 0], .processAcks [dispAddr 0], .processAcks [dispAddr 0]]
    (sentDatagrams st.trace).length = 1 ∧ (st.circuits.get? (dispAddr 0)).map (fun c => c.unacked.keys) = some [1] := by decide +kernel

/-- **C27.** The API call for it raises `AttributeError` for all arguments, and does nothing: it asks the message whether it is a valid host.  (With
the arguments in the right order it would send the message, marked as resent.) -/
theorem C27_send_retry_raises (env : DEnv) (st : DState) (m : Message) (r : HostRef) :
    sendRetry env st m r = (.error .attributeError, st) ∧
    (0 < env.depth → sendAny env st (.message m) (.host r) .retry = send env st m r .retry) := by
  refine ⟨rfl, fun hd => ?_⟩
  unfold sendAny SendArg.isOk
  cases h : (st.hosts r).isOk with
  | true => simp only [h, Bool.not_true, Bool.false_eq_true, if_false]
  | false =>
    unfold send
    obtain ⟨k, hk⟩ : ∃ k, env.depth = k + 1 := ⟨env.depth - 1, by omega⟩
    simp [hk, sendWith, h]

/-! ## C28 -/

/-- **C28.** `find_circuit` returns the circuit registered for the current address of the host; if there was none, a new
one with no packets sent; other addresses keep theirs. -/
theorem C28_find_circuit (st : DState) (r : HostRef) :
    (findCircuit st r).1.circuits.get? (st.hosts r).addr = some (findCircuit st r).2 ∧
    (∀ c, st.circuits.get? (st.hosts r).addr = some c → findCircuit st r = (st, c)) ∧
    (st.circuits.get? (st.hosts r).addr = none → (findCircuit st r).2 = { host := r }) ∧
    (∀ a, a ≠ (st.hosts r).addr → (findCircuit st r).1.circuits.get? a = st.circuits.get? a) ∧
    findCircuit (findCircuit st r).1 r = findCircuit st r := by
  obtain ⟨hh, _, _, _, _, _, hg, hc⟩ := findCircuit_fields st r
  have h1 := findCircuit_get? st r
  refine ⟨h1, ?_, ?_, ?_, ?_⟩
  · intro c h; unfold findCircuit getCircuit; rw [h]
  · intro h; rw [hc, h]; rfl
  · intro a ha; rw [hg, if_neg]; intro h; exact ha h.1.symm
  · have hex : ∀ (s : DState) (c : Circuit), s.circuits.get? (s.hosts r).addr = some c → findCircuit s r = (s, c) := by
      intro s c h; unfold findCircuit getCircuit; rw [h]
    rw [hex (findCircuit st r).1 (findCircuit st r).2 (by rw [hh]; exact h1)]

/-- In every reachable state there is at most one circuit per address, and circuits are where `get_circuit` finds them. -/
theorem C28_one_per_address (env : DEnv) (hosts : HostRef → Host) (ops : List Op) :
    (runOps env (DState.init hosts) ops).circuits.keys.Nodup := (reachable_inv env hosts ops).nodup

/-- A circuit exists exactly for the addresses packets were exchanged with since their last removal – and then keeps existing:
an address packets were sent to or accepted from has a circuit. -/
theorem C28_circuit_exists (env : DEnv) (hosts : HostRef → Host) (ops : List Op) (a : Addr)
    (h : circuitHistory a (runOps env (DState.init hosts) ops).trace ≠ []) :
    ∃ c, (runOps env (DState.init hosts) ops).circuits.get? a = some c := by
  have hi := reachable_inv env hosts ops
  generalize runOps env (DState.init hosts) ops = st at *
  cases hg : st.circuits.get? a with
  | some c => exact ⟨c, rfl⟩
  | none => exact absurd (hi.absent a hg) h

/-- `is_circuit_alive` and `remove_circuit_data` agree with the registry. -/
theorem C28_registry (d : Dict Addr Circuit) (h : Host) :
    (isCircuitAlive d h = true ↔ ∃ c, d.get? h.addr = some c ∧ c.alive = true) ∧
    (removeCircuitData d h).get? h.addr = none ∧ isCircuitAlive (removeCircuitData d h) h = false ∧
    ∀ a, a ≠ h.addr → (removeCircuitData d h).get? a = d.get? a := by
  have hrem : (removeCircuitData d h).get? h.addr = none := by
    unfold removeCircuitData
    split
    · rw [Dict.get?_del, if_pos rfl]
    · rename_i hn
      simp only [Dict.has, Bool.not_eq_true] at hn
      exact Option.isNone_iff_eq_none.mp (by simpa using hn)
  refine ⟨?_, hrem, ?_, ?_⟩
  · unfold isCircuitAlive
    cases d.get? h.addr <;> simp
  · unfold isCircuitAlive; rw [hrem]
  · intro a ha
    unfold removeCircuitData
    split
    · rw [Dict.get?_del, if_neg ha]
    · rfl

/-- All circuits a dispatcher creates are alive until removed. -/
theorem C28_alive (env : DEnv) (hosts : HostRef → Host) (ops : List Op) (h : Host) :
    isCircuitAlive (runOps env (DState.init hosts) ops).circuits h = true ↔
      h.addr ∈ (runOps env (DState.init hosts) ops).circuits.keys := by
  have hall := runOps_preserves (alive_closed env) (fun _ _ => Prog.mutates_any _) ops (fun _ _ _ _ _ => trivial) (DState.init hosts)
    (by intro a c h; cases h)
  generalize runOps env (DState.init hosts) ops = st at *
  unfold isCircuitAlive
  cases hg : st.circuits.get? h.addr with
  | none => simp only [Bool.false_eq_true, false_iff]; exact (Dict.get?_eq_none_iff _ _).mp hg
  | some c =>
    simp only [hall _ _ hg, true_iff]
    exact List.mem_map.mpr ⟨_, Dict.mem_of_get? hg, rfl⟩

example : let st := runOps dispEnv (DState.init dispHosts) (demoOps ++ [.removeCircuit 1])
    st.circuits.keys = [dispAddr 0] ∧ isCircuitAlive st.circuits (dispHosts 0) = true ∧ isCircuitAlive st.circuits (dispHosts 1) = false := by
  decide +kernel

/-! ## C29 -/

/-- **C29.** A send to a host whose ip or port is `None` or `0` returns `None` and changes nothing at all. -/
theorem C29_invalid_host (env : DEnv) (hd : 0 < env.depth) (st : DState) (m : Message) (r : HostRef) (mode : SendMode)
    (h : (st.hosts r).ip = .none ∨ (st.hosts r).ip = .zero ∨ (st.hosts r).port = none ∨ (st.hosts r).port = some 0) :
    send env st m r mode = (.ok none, st) := by
  have hok : (st.hosts r).isOk = false := by
    unfold Host.isOk
    rcases h with h | h | h | h <;> simp [h]
  unfold send
  obtain ⟨n, hn⟩ : ∃ n, env.depth = n + 1 := ⟨env.depth - 1, by omega⟩
  rw [hn]
  unfold sendWith
  simp [hok]

example : (⟨.str "sim", some 0⟩ : Host).isOk = false ∧ (⟨.str "sim", some 13000⟩ : Host).isOk = true := by decide

/-- A send to a valid host in a reachable dispatcher that does not raise (it only does if a subscriber of outgoing packets does, or
the recursion limit is hit, or as in `C30_failed_send_raises`) prepares one packet for the host's address and hands at most one datagram to the socket, for the same
address.  Its header carries the next packet id of that peer and the reliable flag exactly if the send was reliable.  What
subscribers of outgoing packets send themselves comes before (`t1`). -/
theorem C29_valid_host (env : DEnv) (hosts : HostRef → Host) (ops : List Op) (m : Message) (r : HostRef) (mode : SendMode)
    (hv : ((runOps env (DState.init hosts) ops).hosts r).isOk = true) (o : Option Bytes)
    (h : (send env (runOps env (DState.init hosts) ops) m r mode).1 = .ok o) :
    let st := runOps env (DState.init hosts) ops
    let st' := (send env st m r mode).2
    ∃ t1 m', st.trace <+: t1 ∧ (env.handleOutgoing = false → t1 = st.trace) ∧
      st'.trace = t1 ++ (.prepared (st'.hosts r).addr m' :: (match o with | none => [] | some dg => [.sent (st'.hosts r).addr dg])) ∧
      m'.name = m.name ∧ m'.blocks = m.blocks ∧ m'.packetId = (outIds (circuitHistory (st'.hosts r).addr t1)).length + 1 ∧
      (m'.sendFlags &&& 0x40 ≠ 0 ↔ ∃ retries, mode = .reliable retries) ∧
      ∀ dg, o = some dg → m'.packetId < 2 ^ 31 →
        ∃ tail, dg = UInt8.ofNat m'.sendFlags :: (idBytes m'.packetId ++ [0] ++ tail) := by
  have hi := reachable_inv env hosts ops
  generalize runOps env (DState.init hosts) ops = st at *
  obtain ⟨st1, ⟨hpre, hi1⟩, htx, hst1⟩ := send_ok_transmit (P := fun s => st.trace <+: s.trace ∧ Inv s)
    (by
      have hq := quiet_closed env st
      refine ⟨?_, ?_, ?_⟩
      · intro s x v _ ⟨h1, h2⟩; exact ⟨h1, (Inv.closed env).hosts s x v trivial h2⟩
      · intro s x ⟨h1, h2⟩; exact ⟨h1.trans (List.prefix_append _ _), (Inv.closed env).outgoing s x h2⟩
      · intro s x y z ⟨h1, h2⟩; exact ⟨h1.trans (transmit_keeps env s x y z).trace, (Inv.closed env).transmit s x y z h2⟩)
    ⟨List.prefix_refl _, hi⟩ hv (Prod.ext h rfl : sendWith env env.depth st m r mode = (.ok o, _))
  obtain ⟨h1, h2, _⟩ := transmit_trace env st1 m r mode
  have hhosts := (transmit_circ env st1 m r mode).2.1
  have hlast := find_lastOut hi1 r
  have hs : (send env st m r mode).2 = (transmit env st1 m r mode).2 := by rw [htx]; rfl
  simp only
  rw [hs, hhosts]
  rw [htx] at h2
  have ho : (transmit env st1 m r mode).1 = .ok o := by rw [htx]
  rw [ho] at h1
  refine ⟨st1.trace, (mode.prepare (findCircuit st1 r).2 m).2, hpre, fun hb => by rw [hst1 hb], (by rw [h1]; cases o <;> rfl), ?_⟩
  rw [prepare_eq] at h2 ⊢
  refine ⟨preparedMsg_name _ _ _ _, preparedMsg_blocks _ _ _ _, by rw [preparedMsg_id, hlast], ?_, ?_⟩
  · simp only
    rw [preparedMsg_reliable]
    cases mode <;> simp [SendMode.isReliable]
  · intro dg hdg hp
    exact serialize_header (h2 dg (by rw [hdg])) (preparedMsg_flags_lt _ m mode) hp

example : let st := runOps dispEnv (DState.init dispHosts) demoOps
    (st.hosts 0).isOk = true ∧
    (send dispEnv st demoMessage 0 (.reliable 2)).1 =
      .ok (some [0x50, 0, 0, 0, 4, 0, 0xff, 0xff, 1, 44, 77, 0, 0, 0, 3, 104, 105, 0, 2, 1, 0, 2, 0]) := by decide +kernel

/-! ## C30 -/

/-- **C30, failure.** If a send did not return a datagram, none left, `packets_out` stays, and unless
the send was a reliable one the packets waiting for acknowledgement stay the same on all circuits. -/
theorem C30_failed_send (env : DEnv) (hb : env.handleOutgoing = false) (st : DState) (m : Message) (r : HostRef) (mode : SendMode)
    (h : ∀ dg, (send env st m r mode).1 ≠ .ok (some dg)) :
    let st' := (send env st m r mode).2
    sentDatagrams (st'.trace.drop st.trace.length) = [] ∧ st'.packetsOut = st.packetsOut ∧
    ((∀ n, mode ≠ .reliable n) → ∀ a c', st'.circuits.get? a = some c' →
      c'.unacked = ((st.circuits.get? a).map (·.unacked)).getD [] ∧ c'.unackCount = ((st.circuits.get? a).map (·.unackCount)).getD 0) := by
  have hsame : ∀ st' : DState, st' = st → sentDatagrams (st'.trace.drop st.trace.length) = [] ∧ st'.packetsOut = st.packetsOut ∧
      ((∀ n, mode ≠ .reliable n) → ∀ a c', st'.circuits.get? a = some c' →
      c'.unacked = ((st.circuits.get? a).map (·.unacked)).getD [] ∧ c'.unackCount = ((st.circuits.get? a).map (·.unackCount)).getD 0) := by
    rintro _ rfl
    refine ⟨by simp [sentDatagrams], rfl, ?_⟩
    intro _ a c hc
    rw [hc]; exact ⟨rfl, rfl⟩
  by_cases hd : 0 < env.depth
  · rw [send_default hb hd] at h ⊢
    by_cases hok : (st.hosts r).isOk = true
    · simp only [hok, if_true] at h ⊢
      obtain ⟨h1, _, h3⟩ := transmit_trace env st m r mode
      have hg := transmit_get? env st m r mode
      have e : (transmit env st m r mode).2.trace = st.trace ++ [.prepared (st.hosts r).addr (mode.prepare (findCircuit st r).2 m).2] ∧
          (transmit env st m r mode).2.packetsOut = st.packetsOut := by
        generalize (transmit env st m r mode).1 = o at h h1 h3
        match o, h, h1, h3 with
        | .ok (some dg), h, _, _ => exact absurd rfl (h dg)
        | .ok none, _, h1, h3 => exact ⟨h1, h3⟩
        | .error _, _, h1, h3 => exact ⟨h1, h3⟩
      refine ⟨by rw [e.1]; simp [sentDatagrams], e.2, ?_⟩
      intro hm a c' hc
      rw [hg] at hc
      split at hc
      · cases hc
        have hrel : mode.isReliable = false := by cases mode with
          | plain => rfl
          | retry => rfl
          | reliable n => exact absurd rfl (hm n)
        rw [prepare_eq]
        simp only [hrel, Bool.false_eq_true, if_false, Circuit.nextPacketId]
        cases st.circuits.get? a <;> exact ⟨rfl, rfl⟩
      · rw [hc]; exact ⟨rfl, rfl⟩
    · exact hsame _ (by simp only [hok, Bool.false_eq_true, if_false])
  · exact hsame _ (by unfold send; rw [show env.depth = 0 by omega]; rfl)

/-- **C30, reliable sends.** After a reliable send to a valid host – whether it returned a datagram, `None` or an exception – its packet waits for
an acknowledgement, under the next id of that circuit, and no other circuit changes. -/
theorem C30_reliable_waits (env : DEnv) (hb : env.handleOutgoing = false) (hd : 0 < env.depth) (hosts : HostRef → Host) (ops : List Op)
    (m : Message) (r : HostRef) (n : Int) (hv : ((runOps env (DState.init hosts) ops).hosts r).isOk = true) :
    let st := runOps env (DState.init hosts) ops
    let a := (st.hosts r).addr
    let st' := (send env st m r (.reliable n)).2
    waitingIds st' a = waitingIds st a ++ [((st.circuits.get? a).map (·.lastOut)).getD 0 + 1] ∧
      (∀ b, b ≠ a → st'.circuits.get? b = st.circuits.get? b) := by
  have hi := reachable_inv env hosts ops
  generalize runOps env (DState.init hosts) ops = st at *
  simp only
  rw [send_default hb hd, hv, if_pos rfl]
  have hg := transmit_get? env st m r (.reliable n)
  constructor
  · have e : waitingIds st (st.hosts r).addr = ((st.circuits.get? (st.hosts r).addr).getD { host := r }).unacked.keys := by
      unfold waitingIds
      cases st.circuits.get? (st.hosts r).addr <;> rfl
    have e2 : ((st.circuits.get? (st.hosts r).addr).map (·.lastOut)).getD 0 = ((st.circuits.get? (st.hosts r).addr).getD { host := r }).lastOut := by
      cases st.circuits.get? (st.hosts r).addr <;> rfl
    have hnew : ((st.circuits.get? (st.hosts r).addr).getD { host := r }).lastOut + 1 ∉
        ((st.circuits.get? (st.hosts r).addr).getD { host := r }).unacked.keys := by
      cases hc : st.circuits.get? (st.hosts r).addr with
      | none => simp [Dict.keys]
      | some c =>
        intro hm
        have hci := hi.circ _ c hc
        have := waiting_mem_outIds ((hci.waiting _).mp hm)
        rw [hci.ids, List.mem_range'_1] at this
        simp only [Option.getD_some] at this
        omega
    rw [e, e2]
    unfold waitingIds
    rw [hg, if_pos rfl, prepare_eq]
    simp only [SendMode.isReliable, if_true, Circuit.addReliablePacket, Circuit.nextPacketId, preparedMsg_id, Dict.keys_set, hnew, if_false]
  · intro b hb'
    rw [hg, if_neg (fun h => hb' h.symm)]

/-- **C30, return value.** A send returns normally, whatever goes wrong, if all texts of the message are ASCII – or not given as `unicode` objects. -/
theorem C30_returns (env : DEnv) (hb : env.handleOutgoing = false) (hd : 0 < env.depth) (st : DState) (m : Message) (r : HostRef)
    (mode : SendMode) (hm : BuiltFromBlocks m) (ht : ¬ HasNonAsciiText m) : ∃ o, (send env st m r mode).1 = .ok o := by
  rcases Message.render_untyped hm with ⟨h, _⟩ | ⟨_, hr⟩
  · exact absurd h ht
  · obtain ⟨o, st', h, _⟩ := send_default_ok hb hd st m r mode hr
    exact ⟨o, by rw [h]⟩

/-- **C30, exception.** If a text of the message is not ASCII, a failure to serialize it or to send it does not return `None` but raises
`UnicodeEncodeError` (a `ValueError`), from the attempt to write the message to the log.  This holds for every such message and every
way to send it to a valid host. -/
theorem C30_failed_send_raises (env : DEnv) (hb : env.handleOutgoing = false) (hd : 0 < env.depth) (st : DState) (m : Message) (r : HostRef)
    (mode : SendMode) (hm : BuiltFromBlocks m) (ht : HasNonAsciiText m) (hv : (st.hosts r).isOk = true)
    (hf : ∀ dg, (send env st m r mode).1 ≠ .ok (some dg)) : (send env st m r mode).1 = .error .valueError := by
  rw [send_default hb hd, hv, if_pos rfl] at hf ⊢
  rw [transmit_eq] at hf ⊢
  rcases handToSocket_cases env (preparedState st m r mode) (st.hosts r).addr (mode.prepare (findCircuit st r).2 m).2 with h | ⟨dg, _, _, h⟩
  · rw [h]
    unfold sendFailed
    rw [prepare_render]
    rcases Message.render_untyped hm with ⟨_, h⟩ | ⟨h, _⟩
    · rw [h]
    · exact absurd ht h
  · rw [h] at hf; exact absurd rfl (hf dg)

/-- A message with an é that has no template: the send raises.  (With the é as a `str` of its UTF-8 bytes it returns `None`.) -/
example : (send dispEnv (DState.init dispHosts) (Message.new "NoSuchMessage" [.one (Block.mk' "B" [("V", .unicode [0xc3, 0xa9])])]) 0 .plain).1 =
    .error .valueError ∧
    (send dispEnv (DState.init dispHosts) (Message.new "NoSuchMessage" [.one (Block.mk' "B" [("V", .str [0xc3, 0xa9])])]) 0 .plain).1 = .ok none := by
  decide +kernel

/-- **C30, consequence:** the socket refuses (first case), or the message has no template (second), `None` is
returned and nothing is sent, but the packet is waiting for an acknowledgement. -/
theorem C30_failed_reliable_waits :
    (let env := { dispEnv with net := fun _ _ _ => false }
     let r := send env (DState.init dispHosts) demoMessage 0 (.reliable 0)
     r.1 = .ok none ∧ sentDatagrams r.2.trace = [] ∧ (r.2.circuits.get? (dispAddr 0)).map (fun c => (c.unacked.keys, c.unackCount)) = some ([1], 1)) ∧
    (let r := send dispEnv (DState.init dispHosts) (Message.new "NoSuchMessage" []) 0 (.reliable 0)
     r.1 = .ok none ∧ sentDatagrams r.2.trace = [] ∧ (r.2.circuits.get? (dispAddr 0)).map (fun c => (c.unacked.keys, c.unackCount)) = some ([1], 1)) := by
  decide +kernel

example : (send dispEnv (DState.init dispHosts) (Message.new "NoSuchMessage" []) 0 .plain).1 = .ok none := by decide +kernel

/-! ## C31 -/

/-- **C31, parsed.** A datagram that parses, on a trusted circuit, is dropped: all circuits stay as they are, nothing
is delivered, nothing is queued. -/
theorem C31_parsed_dropped (env : DEnv) (st : DState) (r : HostRef) (dg : Bytes) (m : Message) (c : Circuit)
    (hd : (deserialize (env.deser st.trace) st.deser dg).1 = .ok (some m))
    (hc : st.circuits.get? (st.hosts r).addr = some c) (ht : c.trusted = true) :
    (receiveCheck env st r dg).1 = .ok none ∧ (receiveCheck env st r dg).2.circuits = st.circuits ∧
      (receiveCheck env st r dg).2.trace = st.trace ++ [.received (st.hosts r).addr dg] :=
  receive_trusted env st r dg m c hd hc ht

/-- **C31, any datagram.** Whatever the datagram, nothing is delivered on a trusted circuit. -/
theorem C31_never_delivered (env : DEnv) (st : DState) (r : HostRef) (dg : Bytes) (c : Circuit) (hne : dg ≠ [])
    (hc : st.circuits.get? (st.hosts r).addr = some c) (ht : c.trusted = true) :
    (receiveCheck env st r dg).2.trace = st.trace ++ [.received (st.hosts r).addr dg] := by
  have hlen : 0 < dg.length := List.length_pos_iff.mpr hne
  have hf : findCircuit st r = (st, c) := by unfold findCircuit getCircuit; rw [hc]
  cases hd : (deserialize (env.deser st.trace) st.deser dg).1 with
  | error e =>
    unfold receiveCheck
    simp only [hlen, if_true, hf, hd]; rfl
  | ok m? =>
    cases m? with
    | none =>
      unfold receiveCheck
      simp only [hlen, if_true, hf, hd]
      split <;> rfl
    | some m => exact (receive_trusted env st r dg m c hd hc ht).2.2

/-- **C31, skipped** (see also `C23_unparsed_always_queued`)**:** on a trusted circuit they are acknowledged. -/
theorem C31_skipped_is_acknowledged :
    let st := runOps dispEnv (DState.init dispHosts) [.send demoMessage 0 .plain, .setTrusted (dispAddr 0) true]
    (st.circuits.get? (dispAddr 0)).map (·.trusted) = some true ∧ pending st (dispAddr 0) = [] ∧
    pending (receiveCheck dispEnv st 0 [0, 0, 0, 0, 9, 0, 0xff, 0xff, 0xff, 0xfb, 1, 3, 0, 0, 0]).2 (dispAddr 0) = [9] := by decide +kernel

example : let st := runOps dispEnv (DState.init dispHosts) [.send demoMessage 0 (.reliable 1), .setTrusted (dispAddr 0) true]
    (∃ m, (deserialize (dispEnv.deser st.trace) st.deser demoDatagram).1 = .ok (some m) ∧ decide (m.acks = [1, 7]) = true) ∧
    (st.circuits.get? (st.hosts 0).addr).map (fun c => (c.trusted, c.unacked.keys)) = some (true, [1]) ∧
    ((receiveCheck dispEnv st 0 demoDatagram).2.circuits.get? (dispAddr 0)).map (·.unacked.keys) = some [1] :=
  ⟨of_okSome (by decide +kernel), by decide +kernel, by decide +kernel⟩

/-! ## C32 -/

/-- **C32.** In every reachable state the counters are the numbers of datagrams received and sent. -/
theorem C32_counters (env : DEnv) (hosts : HostRef → Host) (ops : List Op) :
    (runOps env (DState.init hosts) ops).packetsIn = receivedCount (runOps env (DState.init hosts) ops).trace ∧
    (runOps env (DState.init hosts) ops).packetsOut = sentCount (runOps env (DState.init hosts) ops).trace :=
  ⟨(reachable_inv env hosts ops).packetsIn, (reachable_inv env hosts ops).packetsOut⟩

/-- Every non-empty datagram passed to `receive_check` is one received event, an empty one is none, whatever happens then. -/
theorem C32_received_once (env : DEnv) (st : DState) (r : HostRef) (dg : Bytes) :
    receivedCount (receiveCheck env st r dg).2.trace = receivedCount st.trace + (if dg = [] then 0 else 1) := by
  have hq : SendClosed env (fun _ _ => True) (fun s => receivedCount s.trace = receivedCount st.trace + 1) := by
    refine ⟨fun s x v _ h => h, ?_, ?_⟩
    · intro s m h; simp only [DState.log, receivedCount_snoc]; exact h
    · intro s m x mode h
      rw [(transmit_trace env s m x mode).1]
      split
      · rename_i dg' _
        have e : ∀ a m', s.trace ++ [Ev.prepared a m', Ev.sent a dg'] = (s.trace ++ [Ev.prepared a m']) ++ [Ev.sent a dg'] := by simp
        rw [e, receivedCount_snoc, receivedCount_snoc]; exact h
      · rw [receivedCount_snoc]; exact h
  by_cases hne : dg = []
  · subst hne; simp [receiveCheck]
  · have hlen : 0 < dg.length := List.length_pos_iff.mpr hne
    simp only [hne, if_false]
    have htr := (findCircuit_fields st r).2.1
    unfold receiveCheck
    simp only [hlen, if_true]
    split
    · simp only [DState.log, htr, receivedCount_snoc]
    · split <;> simp only [DState.log, DState.setCircuit, htr, receivedCount_snoc]
    · rename_i m _
      split
      · simp only [DState.log, htr, receivedCount_snoc]
      · split
        · generalize hst2 : DState.log _ (Ev.delivered m) = st2
          have h2 : receivedCount st2.trace = receivedCount st.trace + 1 := by
            rw [← hst2]; simp only [DState.log, DState.setCircuit, htr, receivedCount_snoc]
          have := handler_preserves hq (fun _ _ => Prog.mutates_any _) st2.trace m env.depth st2 h2
          split
          · rename_i he; rw [he] at this; exact this
          · rename_i he; rw [he] at this; exact this
        · simp only [DState.log, DState.setCircuit, htr, receivedCount_snoc]

example : (runOps dispEnv (DState.init dispHosts) demoOps).packetsIn = 2 ∧ (runOps dispEnv (DState.init dispHosts) demoOps).packetsOut = 4 := by
  decide +kernel

end Pyogp
