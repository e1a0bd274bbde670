import Verif.Proofs.Sent
import Verif.Props.Circuit
import Verif.Props.Reliability
import Verif.Props.Templates
import Verif.Props.Layout

/-!
# Two dispatchers talking to each other (C71), and what the flags of a datagram can be (C72)
-/

namespace Pyogp
open Spec

theorem fills_congr {rt : Runtime} {t : Template} {m p : Message} (hn : p.name = m.name) (hb : p.blocks = m.blocks) (h : Fills rt t m) :
    Fills rt t p := by
  have hg : ∀ n, p.getBlock n = m.getBlock n := fun n => by unfold Message.getBlock; rw [hb]
  exact ⟨hn.trans h.name, by simpa only [hg] using h.blocks, by simpa only [hg] using h.nonempty⟩

theorem sameContent_congr {rt : Runtime} {t : Template} {m p m' : Message} (hn : p.name = m.name) (hb : p.blocks = m.blocks)
    (h : SameContent rt t p m') : SameContent rt t m m' := by
  have hg : ∀ n, p.getBlock n = m.getBlock n := fun n => by unfold Message.getBlock; rw [hb]
  exact ⟨h.name.trans hn, by simpa only [hg] using h.absent, by simpa only [hg] using h.present, h.others⟩

/-- A packet without the ACK and zero-code flags, as it arrives. -/
theorem prepared_arrives (senv : SerEnv) (renv : DeserEnv) (dst : DeserState) (t : Template) (m p : Message) (hc : Connected senv renv t)
    (hwf : WFTemplate t) (hm : Fills senv.rt t m) (hn : p.name = m.name) (hb : p.blocks = m.blocks) (hf : p.sendFlags ∈ [0, 0x20, 0x40])
    (hp : p.packetId < 2 ^ 31) :
    ∃ dg m', serialize senv p = .ok (some dg) ∧ (deserialize renv dst dg).1 = .ok (some m') ∧ SameContent senv.rt t m m' ∧
      m'.packetId = p.packetId ∧ m'.reliable = decide (p.sendFlags = 0x40) ∧ m'.acks = [] := by
  have hf' : p.sendFlags = 0 ∨ p.sendFlags = 0x20 ∨ p.sendFlags = 0x40 := by simpa using hf
  obtain ⟨dg, m', h1, h2, h3, _, h5, h6, h7⟩ := C12_roundtrip senv renv dst t p hc hwf (fills_congr hn hb hm)
    (by rcases hf' with h | h | h <;> rw [h] <;> decide) (by rcases hf' with h | h | h <;> rw [h] <;> decide)
    (by rcases hf' with h | h | h <;> rw [h] <;> decide) hp
  refine ⟨dg, m', h1, h2, sameContent_congr hn hb h3, h5, ?_, h7⟩
  rw [h6]
  rcases hf' with h | h | h <;> rw [h] <;> decide

/-- **C71, messages arrive.** In any reachable state of a dispatcher A (default setting: subscribers do not see outgoing packets; the socket
accepts what it gets; fewer than `2^31 - 1` packets sent; nothing waiting to be acknowledged to the peer) every message that fills a template
both sides know, sent to a valid host, becomes one datagram for that host, and in any state of the peer B (with packet handling, on a circuit that is not
trusted) receiving this datagram delivers a message with the same content, once, before B does anything else, with the id A gave it and
marked reliable exactly if it was sent so; that id, and no other, is then owed to A exactly if it was sent reliably. -/
theorem C71_arrives (envA : DEnv) (hb : envA.handleOutgoing = false) (hdp : 0 < envA.depth) (hn : ∀ tr a dg, envA.net tr a dg = true)
    (hostsA : HostRef → Host) (opsA : List Op) (rB : HostRef) (mode : SendMode) (t : Template) (m : Message)
    (envB : DEnv) (hh : envB.handlePackets = true) (stB : DState) (rA : HostRef) :
    let stA := runOps envA (DState.init hostsA) opsA
    let id := (outIds (circuitHistory (stA.hosts rB).addr stA.trace)).length + 1
    (stA.hosts rB).isOk = true → pending stA (stA.hosts rB).addr = [] → id < 2 ^ 31 →
    (∀ c, stB.circuits.get? (stB.hosts rA).addr = some c → c.trusted = false) →
    Connected envA.ser (envB.deser stB.trace) t → WFTemplate t → Fills envA.ser.rt t m →
    ∃ dg m', (send envA stA m rB mode).1 = .ok (some dg) ∧
      sentDatagrams (send envA stA m rB mode).2.trace = sentDatagrams stA.trace ++ [((stA.hosts rB).addr, dg)] ∧
      SameContent envA.ser.rt t m m' ∧ m'.packetId = id ∧ m'.reliable = mode.isReliable ∧ m'.acks = [] ∧
      (∃ rest, (receiveCheck envB stB rA dg).2.trace =
          stB.trace ++ [.received (stB.hosts rA).addr dg, .parsed (stB.hosts rA).addr m', .delivered m'] ++ rest ∧ deliveredCount rest = 0) ∧
      ∀ a, pending (receiveCheck envB stB rA dg).2 a =
        pending stB a ++ (if a = (stB.hosts rA).addr ∧ mode.isReliable = true then [id] else []) := by
  intro stA id hok hpend hid htr hc hwf hm
  have hi : Inv stA := reachable_inv envA hostsA opsA
  have hlast : (findCircuit stA rB).2.lastOut + 1 = id := by rw [find_lastOut hi rB]
  have hacks : (findCircuit stA rB).2.acks = [] := by
    rw [(findCircuit_fields stA rB).2.2.2.2.2.2.2]
    unfold pending at hpend
    cases hx : stA.circuits.get? (stA.hosts rB).addr with
    | none => rfl
    | some c => rw [hx] at hpend; exact hpend
  have hprep : (mode.prepare (findCircuit stA rB).2 m).2 = preparedMsg (findCircuit stA rB).2 m mode.flag mode.retries := by rw [prepare_eq]
  have hflag : (preparedMsg (findCircuit stA rB).2 m mode.flag mode.retries).sendFlags = mode.flag := by
    unfold preparedMsg
    rw [if_neg (by rw [hacks]; simp)]
  have hpid : (preparedMsg (findCircuit stA rB).2 m mode.flag mode.retries).packetId = id := by rw [preparedMsg_id]; exact hlast
  obtain ⟨dg, m', h1, h2, h3, h4, h5, h6⟩ := prepared_arrives envA.ser (envB.deser stB.trace) stB.deser t m _ hc hwf hm
    (preparedMsg_name (findCircuit stA rB).2 m mode.flag mode.retries) (preparedMsg_blocks _ _ _ _)
    (by rw [hflag]; cases mode <;> simp [SendMode.flag]) (by rw [hpid]; exact hid)
  have hsend : send envA stA m rB mode = transmit envA stA m rB mode := by rw [send_default hb hdp, hok]; rfl
  have hres : (transmit envA stA m rB mode).1 = .ok (some dg) := by
    rw [transmit_eq, hprep]
    unfold handToSocket
    simp only [h1, hn, if_true]
  have hrel : m'.reliable = mode.isReliable := by
    rw [h5, hflag]
    cases mode <;> simp [SendMode.flag, SendMode.isReliable]
  refine ⟨dg, m', by rw [hsend]; exact hres, ?_, h3, h4.trans hpid, hrel, h6, C61_delivered_once envB hh stB rA dg m' h2 htr, ?_⟩
  · rw [hsend, (transmit_trace envA stA m rB mode).1, sentDatagrams_append, hres]
    rfl
  · intro a
    rw [receive_parsed envB stB rA dg m' h2 htr a, hrel, h4, hpid]

/-- The ids listed in a received `PacketAck`. -/
def ListsIds (m : Message) (ids : List Nat) : Prop :=
  m.name = "PacketAck" ∧ ∃ l, m.getBlock "Packets" = .ok l ∧ l.map (fun b => b.getItem "ID") = ids.map (fun id => .ok (.num (.int id)))

/-- The template of `PacketAck`: one Variable block `Packets` with a U32 `ID`. -/
structure AckTemplate (t : Template) : Prop where
  name : t.name = "PacketAck"
  blocks : ∃ k n, t.blocks = [⟨"Packets", .variable, k, [⟨"ID", .u32, n⟩]⟩]
  wf : WFTemplate t

theorem ack_fills (rt : Runtime) {t : Template} (ht : AckTemplate t) {m : Message} {ids : List Nat} (hm : IsAckFor m ids) (hne : ids ≠ [])
    (hlen : ids.length ≤ 255) (hid : ∀ id ∈ ids, id < 2 ^ 32) : Fills rt t m := by
  obtain ⟨k, n, hb⟩ := ht.blocks
  have hg : m.getBlock "Packets" = .ok (ids.map packetsBlock) := by
    unfold Message.getBlock; rw [hm.2]; rfl
  refine ⟨hm.1.trans ht.name.symm, ?_, ?_⟩
  · intro tb htb
    rw [hb, List.mem_singleton] at htb
    subst htb
    refine ⟨_, hg, by simpa [CountOk] using hlen, ?_⟩
    intro b hbm v hv
    rw [List.mem_singleton] at hv
    subst hv
    obtain ⟨id, hi, rfl⟩ := List.mem_map.mp hbm
    refine ⟨.num (.int id), .num (.int id), rfl, ?_⟩
    have hlt := hid id hi
    have hr : InRange 4 false (id : Int) := by
      have e : InRange 4 false (id : Int) = ((0 : Int) ≤ id ∧ (id : Int) < 2 ^ (8 * 4)) := rfl
      rw [e]
      exact ⟨by omega, by omega⟩
    have h8 : receivedAs rt ⟨"ID", .u32, n⟩ (.num (.int id)) = if InRange 4 false (id : Int) then some (.num (.int id)) else none := rfl
    rw [h8, if_pos hr]
  · refine .inr ⟨⟨"Packets", .variable, k, [⟨"ID", .u32, n⟩]⟩, by rw [hb]; exact List.mem_cons_self, _, hg, ?_⟩
    intro h
    exact hne (List.map_eq_nil_iff.mp h)

theorem ack_read {rt : Runtime} {t : Template} (ht : AckTemplate t) {m m' : Message} {ids : List Nat} (hm : IsAckFor m ids) (hne : ids ≠ [])
    (hid : ∀ id ∈ ids, id < 2 ^ 32) (h : SameContent rt t m m') : ListsIds m' ids := by
  obtain ⟨k, n, hb⟩ := ht.blocks
  have hg : m.getBlock "Packets" = .ok (ids.map packetsBlock) := by
    unfold Message.getBlock; rw [hm.2]; rfl
  obtain ⟨l', h1, h2, h3⟩ := h.present ⟨"Packets", .variable, k, [⟨"ID", .u32, n⟩]⟩ (by rw [hb]; exact List.mem_cons_self) _ hg
    (fun e => hne (List.map_eq_nil_iff.mp e))
  refine ⟨h.name.trans hm.1, l', h1, ?_⟩
  rw [List.length_map] at h2
  apply List.ext_getElem
  · simp [h2]
  · intro i hi1 hi2
    rw [List.getElem_map, List.getElem_map]
    rw [List.length_map] at hi1 hi2
    obtain ⟨b', h4, _, _, _, h5⟩ := h3 i (packetsBlock ids[i]) (by rw [List.getElem?_map, List.getElem?_eq_getElem hi2]; rfl)
    obtain ⟨y, h6, h7⟩ := h5 ⟨"ID", .u32, n⟩ (List.mem_singleton.mpr rfl) _ rfl
    have hy : y = .num (.int (ids[i] : Nat)) := by
      have := hid ids[i] (List.getElem_mem hi2)
      have hr : InRange 4 false ((ids[i] : Nat) : Int) := by
        have e : InRange 4 false ((ids[i] : Nat) : Int) = ((0 : Int) ≤ (ids[i] : Nat) ∧ ((ids[i] : Nat) : Int) < 2 ^ (8 * 4)) := rfl
        rw [e]
        exact ⟨by omega, by omega⟩
      have h8 : (if InRange 4 false ((ids[i] : Nat) : Int) then some (PyVal.num (.int (ids[i] : Nat))) else none) = some y := h6
      rw [if_pos hr] at h8
      exact (Option.some.inj h8).symm
    rw [List.getElem?_eq_getElem hi1] at h4
    rw [Option.some.inj h4, h7, hy]

theorem forall₂_filterMap {α β γ : Type} {R : α → β → Prop} {S : α → γ → Prop} {f : β → Option γ} : ∀ {l : List α} {l' : List β},
    List.Forall₂ R l l' → (∀ a ∈ l, ∀ b, b ∈ l' → R a b → ∃ c, f b = some c ∧ S a c) → List.Forall₂ S l (l'.filterMap f)
  | _, _, .nil, _ => .nil
  | _, _, .cons h t, hi => by
    obtain ⟨c, h1, h2⟩ := hi _ List.mem_cons_self _ List.mem_cons_self h
    rw [List.filterMap_cons_some h1]
    exact .cons h2 (forall₂_filterMap t fun a ha b hb => hi a (List.mem_cons_of_mem _ ha) b (List.mem_cons_of_mem _ hb))

/-- **C71, acknowledgements arrive.** In any reachable state of a dispatcher (default setting, all hosts valid, the socket accepts what it gets, fewer than
`2^31` packets in total), `process_acks` returns and hands to the socket one datagram for each part of the queued ids (the ids of each circuit cut in
order into non-empty parts), for the host of that circuit, and a peer with the same `PacketAck` template, in any state, reads from it a `PacketAck`
listing exactly the ids of that part, in order; nothing else is sent. -/
theorem C71_acks_arrive (env : DEnv) (hb : env.handleOutgoing = false) (hd : 0 < env.depth) (hn : ∀ tr a dg, env.net tr a dg = true)
    (hosts : HostRef → Host) (ops : List Op)
    (order : List Addr) (hp : order.Perm (runOps env (DState.init hosts) ops).circuits.keys)
    (hv : HostsValid (runOps env (DState.init hosts) ops)) (renv : DeserEnv) (t : Template) (ht : AckTemplate t) (hc : Connected env.ser renv t) :
    let st := runOps env (DState.init hosts) ops
    (preparedMsgs (processAcks env st order).2.trace).length < 2 ^ 31 →
    (processAcks env st order).1 = .ok () ∧
    ∃ (new : List Ev) (parts : Addr → List (List Nat)), (processAcks env st order).2.trace = st.trace ++ new ∧
      (∀ a ∈ order, (parts a).flatten = pending st a ∧ ∀ p ∈ parts a, p ≠ []) ∧
      List.Forall₂ (fun (d : Addr × List Nat) (x : Addr × Bytes) => x.1 = ackDest st d.1 ∧
          ∀ dst : DeserState, ∃ m', (deserialize renv dst x.2).1 = .ok (some m') ∧ ListsIds m' d.2)
        (order.flatMap fun a => (parts a).map fun p => (a, p)) (sentDatagrams new) := by
  intro st hlen
  have hi : Inv st := reachable_inv env hosts ops
  have hs : SentInv env st := reachable_sent env hosts ops
  have hs' : SentInv env (processAcks env st order).2 := by
    have := reachable_sent env hosts (ops ++ [.processAcks order])
    unfold runOps at this
    rw [List.foldl_append] at this
    exact this
  have hok := (C24_acks_exact env hb hd hosts ops order hp hv).1
  have ho : OutgoingKeepHosts env st.hosts := by intro h; rw [hb] at h; cases h
  obtain ⟨parts, sel, new, h1, h2, h3, h4, h5, h6⟩ := processAcks_ok (st' := (processAcks env st order).2) hi hp hv ho (Prod.ext hok rfl)
  have hsd : sentDatagrams new = (preparedMsgs new).filterMap (datagramOf env) := by
    have e1 := hs'.all hn
    rw [h2, sentDatagrams_append, preparedMsgs_append, List.filterMap_append, hs.all hn] at e1
    exact List.append_cancel_left e1
  refine ⟨hok, new, parts, h2, fun a ha => ⟨(h1 a ha).1, fun p hp => ((h1 a ha).2 p hp).1⟩, ?_⟩
  rw [hsd, ← h4 hb]
  refine forall₂_filterMap h5 ?_
  rintro ⟨a, p⟩ hm ⟨a', q⟩ hq ⟨hq1, hq2⟩
  obtain ⟨b, hb1, hb2⟩ := List.mem_flatMap.mp hm
  obtain ⟨p', hp1, hp2⟩ := List.mem_map.mp hb2
  cases hp2
  obtain ⟨hfl, hpar⟩ := h1 a hb1
  obtain ⟨hne, h251⟩ := hpar p hp1
  have hid : ∀ id ∈ p, id < 2 ^ 32 := by
    intro id hid
    have hmem : id ∈ pending st a := by rw [← hfl]; exact List.mem_flatten.mpr ⟨p, hp1, hid⟩
    unfold pending at hmem
    cases hx : st.circuits.get? a with
    | none => rw [hx] at hmem; cases hmem
    | some c => rw [hx] at hmem; exact hs.acks a c hx id hmem
  rw [h4 hb] at hq
  have hq' : (a', q) ∈ preparedMsgs (processAcks env st order).2.trace := by
    rw [h2, preparedMsgs_append]; exact List.mem_append_right _ hq
  have hpid : q.packetId < 2 ^ 31 := Nat.lt_of_le_of_lt (hs'.ids _ hq') hlen
  have hfl' : q.sendFlags ∈ [0, 0x20, 0x40] := by
    rcases hs'.flags _ hq' with h | h
    · exact h
    · exact absurd hq2.1 h.2
  have hfill := ack_fills env.ser.rt ht hq2 hne (Nat.le_trans h251 (by decide)) hid
  obtain ⟨dg, _, hdg, _⟩ := prepared_arrives env.ser renv {} t q q hc ht.wf hfill rfl rfl hfl' hpid
  refine ⟨(a', dg), by simp only [datagramOf, hdg], hq1, ?_⟩
  intro dst
  obtain ⟨dg', m', hdg', h7, h8, _⟩ := prepared_arrives env.ser renv dst t q q hc ht.wf hfill rfl rfl hfl' hpid
  rw [hdg] at hdg'
  cases hdg'
  exact ⟨m', h7, ack_read ht hq2 hne hid h8⟩

/-! ## C72 -/

/-- **C72.** Whatever is done with a dispatcher and whatever flags the caller puts on messages: the flag byte of every datagram it ever
hands to the socket is one of the six combinations of at most one of reliable (`0x40`) and resent (`0x20`) with the ack flag
(`0x10`); so no datagram is ever marked zero-coded. -/
theorem C72_flags (env : DEnv) (hosts : HostRef → Host) (ops : List Op) (a : Addr) (dg : Bytes)
    (h : (a, dg) ∈ sentDatagrams (runOps env (DState.init hosts) ops).trace) :
    ∃ rest, dg = 0x00 :: rest ∨ dg = 0x20 :: rest ∨ dg = 0x40 :: rest ∨ dg = 0x10 :: rest ∨ dg = 0x30 :: rest ∨ dg = 0x50 :: rest := by
  have hs := reachable_sent env hosts ops
  obtain ⟨⟨a', q⟩, hq, hdg⟩ := List.mem_filterMap.mp (hs.sent.subset h)
  have hser : serialize env.ser q = .ok (some dg) := by
    unfold datagramOf at hdg
    split at hdg
    · rename_i d hd; cases hdg; exact hd
    · cases hdg
  have hfl : q.sendFlags ∈ [0, 0x20, 0x40] ∨ (q.sendFlags ∈ [0x10, 0x30, 0x50] ∧ q.name ≠ "PacketAck") := hs.flags _ hq
  have hfl' : q.sendFlags = 0 ∨ q.sendFlags = 0x20 ∨ q.sendFlags = 0x40 ∨ q.sendFlags = 0x10 ∨ q.sendFlags = 0x30 ∨ q.sendFlags = 0x50 := by
    rcases hfl with h | ⟨h, _⟩
    · have : q.sendFlags = 0 ∨ q.sendFlags = 0x20 ∨ q.sendFlags = 0x40 := by simpa using h
      omega
    · have : q.sendFlags = 0x10 ∨ q.sendFlags = 0x30 ∨ q.sendFlags = 0x50 := by simpa using h
      omega
  have hlt : q.sendFlags < 256 := by omega
  have h2 := C55_payload_ignores_flags env.ser q q.sendFlags hlt hlt dg hser
  rw [show ({ q with sendFlags := q.sendFlags } : Message) = q from rfl, hser] at h2
  have h3 : dg = UInt8.ofNat q.sendFlags :: dg.tail := Option.some.inj (Except.ok.inj h2)
  refine ⟨dg.tail, ?_⟩
  rcases hfl' with h | h | h | h | h | h <;> rw [h] at h3
  · exact .inl h3
  · exact .inr (.inl h3)
  · exact .inr (.inr (.inl h3))
  · exact .inr (.inr (.inr (.inl h3)))
  · exact .inr (.inr (.inr (.inr (.inl h3))))
  · exact .inr (.inr (.inr (.inr (.inr h3))))

/-- The number in bytes 1 to 4 of a datagram, most significant first. -/
def HasId (dg : Bytes) (id : Nat) : Prop := slice dg 1 5 = idBytes id

theorem sentDatagram_id {env : SerEnv} {m : Message} {dg : Bytes} (h : serialize env m = .ok (some dg)) (hf : m.sendFlags < 256)
    (hp : m.packetId < 2 ^ 31) : HasId dg m.packetId := by
  obtain ⟨t, _, _, body, _, rfl⟩ := (C70_layout env m hf hp dg).mp h
  simp [HasId, slice, idBytes]

/-- The ids prepared for `a`, if its circuit was never removed. -/
theorem outIds_history (a : Addr) (tr : List Ev) (hr : Ev.removed a ∉ tr) :
    outIds (circuitHistory a tr) = (preparedMsgs tr).filterMap fun x => if x.1 = a then some x.2.packetId else none := by
  induction tr using List.reverseRecOn with
  | nil => rfl
  | append_singleton tr e ih =>
    have ih := ih (fun h => hr (List.mem_append_left _ h))
    have he : Ev.removed a ≠ e := fun h => hr (by rw [h]; simp)
    unfold circuitHistory at ih ⊢
    rw [List.foldl_append, preparedMsgs_append, List.filterMap_append, ← ih]
    simp only [List.foldl_cons, List.foldl_nil]
    cases e with
    | prepared a' m =>
      by_cases h : a' = a
      · subst h; simp [outIds, preparedMsgs]
      · simp [outIds, preparedMsgs, h]
    | parsed a' m =>
      by_cases h : a' = a
      · subst h; simp [outIds, preparedMsgs]
      · simp [outIds, preparedMsgs, h]
    | removed a' =>
      have : a' ≠ a := fun h => he (by rw [h])
      simp [preparedMsgs, this]
    | _ => simp [preparedMsgs]

/-- **C72, ids on the wire.** As long as the circuit of an address is not removed and fewer than `2^31` packets were prepared for it, the ids in the
datagrams handed to the socket for that address are strictly increasing, so no id occurs twice. -/
theorem C72_ids_increase (env : DEnv) (hosts : HostRef → Host) (ops : List Op) (a : Addr)
    (hr : Ev.removed a ∉ (runOps env (DState.init hosts) ops).trace)
    (hl : ((preparedMsgs (runOps env (DState.init hosts) ops).trace).filter (·.1 = a)).length < 2 ^ 31) :
    ∃ ids : List Nat, ids.Pairwise (· < ·) ∧ (∀ id ∈ ids, 1 ≤ id ∧ id < 2 ^ 31) ∧
      List.Forall₂ (fun (x : Addr × Bytes) id => HasId x.2 id) ((sentDatagrams (runOps env (DState.init hosts) ops).trace).filter (·.1 = a)) ids := by
  have hs := reachable_sent env hosts ops
  have h20 := C20_ids_sequential env hosts ops a
  have ho := outIds_history a _ hr
  generalize runOps env (DState.init hosts) ops = st at *
  have hlen : ((preparedMsgs st.trace).filterMap fun x => if x.1 = a then some x.2.packetId else none).length =
      ((preparedMsgs st.trace).filter (·.1 = a)).length := by
    generalize preparedMsgs st.trace = l
    induction l with
    | nil => rfl
    | cons x l ih => by_cases h : x.1 = a <;> simp [h, ih]
  rw [ho] at h20
  rw [hlen] at h20
  generalize ((preparedMsgs st.trace).filter (·.1 = a)).length = n at *
  have hsub := hs.sent
  have hfl := hs.flags
  generalize preparedMsgs st.trace = pm at *
  generalize sentDatagrams st.trace = sd at *
  have key : ∀ (pm : List (Addr × Message)) (sd : List (Addr × Bytes)), sd.Sublist (pm.filterMap (datagramOf env)) →
      (∀ x ∈ pm, x.2.sendFlags < 256 ∧ (x.1 = a → x.2.packetId < 2 ^ 31)) →
      ∃ ids : List Nat, ids.Sublist (pm.filterMap fun x => if x.1 = a then some x.2.packetId else none) ∧
        List.Forall₂ (fun (x : Addr × Bytes) id => HasId x.2 id) (sd.filter (·.1 = a)) ids := by
    intro pm
    induction pm with
    | nil => intro sd h _; cases h; exact ⟨[], List.Sublist.refl _, .nil⟩
    | cons x pm ih =>
      intro sd h hx
      have hx' := fun y hy => hx y (List.mem_cons_of_mem _ hy)
      have weak : ∀ ids : List Nat, ids.Sublist (pm.filterMap fun x => if x.1 = a then some x.2.packetId else none) →
          ids.Sublist ((x :: pm).filterMap fun x => if x.1 = a then some x.2.packetId else none) := by
        intro ids h
        by_cases hxa : x.1 = a
        · rw [List.filterMap_cons_some (by simp [hxa]; rfl)]; exact h.cons _
        · rw [List.filterMap_cons_none (by simp [hxa])]; exact h
      cases hd : datagramOf env x with
      | none =>
        rw [List.filterMap_cons_none hd] at h
        obtain ⟨ids, h1, h2⟩ := ih sd h hx'
        exact ⟨ids, weak ids h1, h2⟩
      | some y =>
        rw [List.filterMap_cons_some hd] at h
        rcases List.sublist_cons_iff.mp h with h | ⟨sd', rfl, h'⟩
        · obtain ⟨ids, h1, h2⟩ := ih sd h hx'
          exact ⟨ids, weak ids h1, h2⟩
        · obtain ⟨ids, h1, h2⟩ := ih sd' h' hx'
          have hser : ∃ dg, serialize env.ser x.2 = .ok (some dg) ∧ y = (x.1, dg) := by
            unfold datagramOf at hd
            split at hd
            · rename_i d hd'; cases hd; exact ⟨d, hd', rfl⟩
            · cases hd
          obtain ⟨dg, hser, rfl⟩ := hser
          by_cases hxa : x.1 = a
          · refine ⟨x.2.packetId :: ids, ?_, ?_⟩
            · rw [List.filterMap_cons_some (by simp [hxa]; rfl)]; exact h1.cons_cons _
            · rw [List.filter_cons_of_pos (by simpa using hxa)]
              have := hx x List.mem_cons_self
              exact .cons (sentDatagram_id hser this.1 (this.2 hxa)) h2
          · refine ⟨ids, weak ids h1, ?_⟩
            rw [List.filter_cons_of_neg (by simpa using hxa)]
            exact h2
  have hx : ∀ x ∈ pm, x.2.sendFlags < 256 ∧ (x.1 = a → x.2.packetId < 2 ^ 31) := by
    intro x hx
    refine ⟨?_, ?_⟩
    · have := hfl x hx
      simp only [List.mem_cons, List.not_mem_nil, or_false] at this
      omega
    · intro hxa
      have hm : x.2.packetId ∈ pm.filterMap fun x => if x.1 = a then some x.2.packetId else none :=
        List.mem_filterMap.mpr ⟨x, hx, by simp [hxa]⟩
      rw [h20, List.mem_range'_1] at hm
      omega
  obtain ⟨ids, h1, h2⟩ := key pm sd hsub hx
  rw [h20] at h1
  refine ⟨ids, List.Pairwise.sublist h1 (List.pairwise_lt_range' ..), ?_, h2⟩
  intro id hid
  have := List.mem_range'_1.mp (h1.subset hid)
  omega

/-! ## Concrete cases -/

theorem ackTemplate_is : AckTemplate ackTemplate :=
  ⟨rfl, ⟨0, 4, rfl⟩, by constructor <;> decide +kernel⟩

/-- A peer that has a handler for `PacketAck`. -/
def ackPeer : DeserEnv := ⟨demoRt, dispDict, [], some ["PacketAck"], true⟩

/-- `C71_arrives` for the third packet to host 0, sent reliably, to a peer with a history of its own. -/
example : ∃ dg m', (send dispEnv (runOps dispEnv (DState.init dispHosts) (demoOps.take 3)) demoMessage 0 (.reliable 3)).1 = .ok (some dg) ∧
    SameContent demoRt demoTemplate demoMessage m' ∧ m'.packetId = 3 ∧ m'.reliable = true ∧
    pending (receiveCheck dispEnv (runOps dispEnv (DState.init dispHosts) demoOps) 5 dg).2 (dispAddr 5) = [3] := by
  have h := C71_arrives dispEnv rfl (by decide) (fun _ _ _ => rfl) dispHosts (demoOps.take 3) 0 (.reliable 3) demoTemplate demoMessage dispEnv rfl
    (runOps dispEnv (DState.init dispHosts) demoOps) 5 (by decide +kernel) (by decide +kernel) (by decide +kernel)
    (by have e : (runOps dispEnv (DState.init dispHosts) demoOps).circuits.get? (((runOps dispEnv (DState.init dispHosts) demoOps).hosts 5).addr) = none := by
          decide +kernel
        rw [e]; intro c hc; cases hc)
    ⟨rfl, rfl, rfl, rfl, rfl, ["Demo"], rfl, .inl (by decide)⟩ demo_wf demo_fills
  obtain ⟨dg, m', h1, _, h3, h4, h5, _, _, h8⟩ := h
  have e1 : (outIds (circuitHistory ((runOps dispEnv (DState.init dispHosts) (demoOps.take 3)).hosts 0).addr
    (runOps dispEnv (DState.init dispHosts) (demoOps.take 3)).trace)).length + 1 = 3 := by decide +kernel
  rw [e1] at h4
  refine ⟨dg, m', h1, h3, h4, h5, ?_⟩
  rw [h8, e1]
  decide +kernel

/-- The hypotheses of `C71_acks_arrive` for the two ids owed after `demoOps`, and what the peer gets. -/
example : let st := runOps dispEnv (DState.init dispHosts) demoOps
    [dispAddr 1, dispAddr 0].Perm st.circuits.keys ∧ HostsValid st ∧ AckTemplate ackTemplate ∧ Connected dispEnv.ser ackPeer ackTemplate ∧
    (preparedMsgs (processAcks dispEnv st [dispAddr 1, dispAddr 0]).2.trace).length = 6 ∧
    (sentDatagrams ((processAcks dispEnv st [dispAddr 1, dispAddr 0]).2.trace.drop st.trace.length)).map
        (fun x => (x.1, match (deserialize ackPeer {} x.2).1 with
          | .ok (some m) => (m.name, match m.getBlock "Packets" with
            | .ok l => l.map fun b => b.getItem "ID"
            | _ => [])
          | _ => ("", []))) =
      [(dispAddr 1, "PacketAck", [.ok (.num (.int 9))]), (dispAddr 0, "PacketAck", [.ok (.num (.int 9))])] := by
  refine ⟨?_, ?_, ackTemplate_is, ⟨rfl, rfl, rfl, rfl, rfl, ["PacketAck"], rfl, .inl (by decide)⟩, by decide +kernel, by decide +kernel⟩
  · rw [show (runOps dispEnv (DState.init dispHosts) demoOps).circuits.keys = [dispAddr 0, dispAddr 1] by decide +kernel]
    exact .swap _ _ _
  · intro a c hc
    have h : ∀ p ∈ (runOps dispEnv (DState.init dispHosts) demoOps).circuits,
      ((runOps dispEnv (DState.init dispHosts) demoOps).hosts p.2.host).isOk = true := by decide +kernel
    exact h _ (Dict.mem_of_get? hc)

/-- All four datagrams of `demoOps` have a flag byte as in `C72_flags`, and their ids are as in `C72_ids_increase`. -/
example : (sentDatagrams (runOps dispEnv (DState.init dispHosts) demoOps).trace).map (fun x => (x.2.take 5)) =
    [[0x40, 0, 0, 0, 1], [0, 0, 0, 0, 1], [0, 0, 0, 0, 2], [0x50, 0, 0, 0, 3]] := by decide +kernel

end Pyogp
