import Verif.Props.Pair

/-!
# Reliable messages through the queue are never confirmed (C83)
-/

namespace Pyogp
open Spec

theorem noAckFlag_of_flags {env : DEnv} {hosts : HostRef → Host} {st : DState} (h : ∃ ops, st = runOps env (DState.init hosts) ops)
    (hf : ∀ x ∈ preparedMsgs st.trace, x.2.sendFlags &&& 0x10 = 0) : NoAckFlag st.trace := by
  obtain ⟨ops, rfl⟩ := h
  rintro ⟨a, dg⟩ hx f hfl
  have hs := reachable_sent env hosts ops
  obtain ⟨⟨a', q⟩, hq, hdg⟩ := List.mem_filterMap.mp (hs.sent.subset hx)
  have hser : serialize env.ser q = .ok (some dg) := by
    unfold datagramOf at hdg
    split at hdg
    · rename_i d hd; cases hdg; exact hd
    · cases hdg
  have h0 : q.sendFlags &&& 0x10 = 0 := hf _ hq
  have hlt : q.sendFlags < 256 := by
    rcases hs.flags _ hq with h | ⟨h, _⟩
    · have h' : q.sendFlags ∈ [0, 0x20, 0x40] := h
      have : q.sendFlags = 0 ∨ q.sendFlags = 0x20 ∨ q.sendFlags = 0x40 := by simpa using h'
      omega
    · have h' : q.sendFlags ∈ [0x10, 0x30, 0x50] := h
      have : q.sendFlags = 0x10 ∨ q.sendFlags = 0x30 ∨ q.sendFlags = 0x50 := by simpa using h'
      omega
  have h2 := C55_payload_ignores_flags env.ser q q.sendFlags hlt hlt dg hser
  rw [show ({ q with sendFlags := q.sendFlags } : Message) = q from rfl, hser] at h2
  have h3 : dg = UInt8.ofNat q.sendFlags :: dg.tail := Option.some.inj (Except.ok.inj h2)
  rw [h3] at hfl
  have h4 : UInt8.ofNat q.sendFlags = f := by simpa using hfl
  rw [← h4, UInt8.toNat_ofNat', Nat.mod_eq_of_lt hlt]
  exact h0

theorem out_history {y : Addr} {m : Message} (tr : List Ev) (hr : Ev.removed y ∉ tr) : CEv.out m ∈ circuitHistory y tr ↔ (y, m) ∈ preparedMsgs tr := by
  induction tr using List.reverseRecOn with
  | nil => simp [circuitHistory, preparedMsgs]
  | append_singleton tr e ih =>
    have ih := ih (fun h => hr (List.mem_append_left _ h))
    have he : e ≠ Ev.removed y := fun h => hr (by rw [h]; simp)
    rw [preparedMsgs_append, List.mem_append]
    unfold circuitHistory at ih ⊢
    rw [List.foldl_append]
    cases e <;> simp only [List.foldl_cons, List.foldl_nil] <;> try (simpa [preparedMsgs] using ih)
    case prepared a' q =>
      by_cases ha : a' = y
      · subst ha; simp [preparedMsgs, ih]
      · have : ¬ (y = a' ∧ m = q) := fun h => ha h.1.symm
        simp [preparedMsgs, ih, ha, this]
    case parsed a' q =>
      by_cases ha : a' = y <;> simp [preparedMsgs, ih, ha]
    case removed a' =>
      have : a' ≠ y := fun h => he (by rw [h])
      simp [preparedMsgs, ih, this]

def NoRemoval (st : DState) : Prop := ∀ a, Ev.removed a ∉ st.trace

theorem NoRemoval.snoc {st st' : DState} (h : NoRemoval st) {l : List Ev} (ht : st'.trace = st.trace ++ l) (hl : ∀ a, Ev.removed a ∉ l) : NoRemoval st' := by
  intro a ha
  rw [ht, List.mem_append] at ha
  exact ha.elim (h a) (hl a)

theorem noRemoval_recv (env : DEnv) : RecvClosed env (fun _ _ => True) NoRemoval := by
  refine { hosts := ?_, outgoing := ?_, transmit := ?_, received := ?_, collect := ?_, parsed := ?_, delivered := ?_ }
  · intro st r v _ h; exact h
  · intro st m h; exact h.snoc rfl (by simp)
  · intro st m r mode h
    refine h.snoc (transmit_trace env st m r mode).1 ?_
    intro a
    split <;> simp
  · intro st r dg h
    have hf := (findCircuit_fields st r).2.1
    refine h.snoc (l := [.received (st.hosts r).addr dg]) ?_ (by simp)
    simp only [DState.log, hf]
  · intro st a c pid h _ _; exact h
  · intro st a c m h _ _; exact h.snoc (l := [.parsed a m]) rfl (by simp)
  · intro st m h; exact h.snoc rfl (by simp)

theorem noRemoval_ack (env : DEnv) : AckClosed env (fun _ _ => True) NoRemoval :=
  { (noRemoval_recv env).toSendClosed with cleared := fun _ _ _ h _ => h }

theorem act_noRemoval {env : CEnv} {w : World} {a : Act} (hu : Usual w a) (h : NoRemoval w.m.disp) : NoRemoval (act env w a).m.disp := by
  cases a with
  | disp o => exact hu.elim
  | enqueue e => exact h
  | start => exact h
  | stop => exact h
  | stopQueue => exact h
  | poller i o => simp only [act]; split <;> exact h
  | udp i input order =>
    simp only [act]
    split
    · exact h
    · rename_i pc _
      cases pc <;> simp only [udpRun]
      case receiving =>
        have : NoRemoval (receiveRound env.m w.m.disp input).2 := by
          cases input with
          | none => exact h
          | some i => exact receiveCheck_preserves (noRemoval_recv env.m.disp) (fun _ _ => Prog.mutates_any _) _ _ _ h
        split <;> rename_i he <;> rw [he] at this <;> exact this
      case acking =>
        have : NoRemoval (ackRound env.m w.m.disp order).2 := by
          unfold ackRound
          split
          · exact processAcks_preserves (noRemoval_ack env.m.disp) (fun _ _ => Prog.mutates_any _) _ _ h
          · exact h
        split <;> rename_i he <;> rw [he] at this <;> exact this
      case draining =>
        split
        · exact h
        · rename_i e q _
          have : NoRemoval (sendUdpMessage env.m (w.m.popped e q).disp e).2 := by
            rw [sendUdp_mode]
            exact send_preserves (noRemoval_ack env.m.disp).toSendClosed (fun _ _ => Prog.mutates_any _) _ _ _ _ h
          split <;> rename_i he <;> rw [he] at this <;> exact this
      all_goals exact h

theorem usual_noRemoval {env : CEnv} {hosts : HostRef → Host} {hasEq : Bool} {as : List Act} (h : UsualHistory env (World.init hosts hasEq) as) :
    NoRemoval (runActs env (World.init hosts hasEq) as).m.disp := by
  induction h with
  | nil => intro a ha; cases ha
  | snoc a _ hu ih => rw [runActs_snoc]; exact act_noRemoval hu ih

/-- **C83, never confirmed.** Two managers used through their queues, any schedule, any losses, duplicates and reordering on the way.  All reliable packets
B ever sent to an address still wait there for their acknowledgement, whatever A received and acknowledged; and their number at B's host is the
number of reliable messages taken from B's queue: `unacked_packets` only ever grows. -/
theorem C83_never_confirmed {envA envB : CEnv} (hA : ThroughQueue envA) (hB : ThroughQueue envB) {hostsA hostsB : HostRef → Host} {eqA eqB : Bool}
    {asA asB : List Act} (hp : Pair envA envB (World.init hostsA eqA) (World.init hostsB eqB) asA asB) (hok : (hostsB envB.m.host).isOk = true)
    (hn : ∀ e ∈ enqueuedIn asB, e.msg.name ≠ "PacketAck") :
    let a := (runActs envA (World.init hostsA eqA) asA).m
    let b := (runActs envB (World.init hostsB eqB) asB).m
    FitsBuffer a.disp.trace → FitsBuffer b.disp.trace →
    (∀ y, (waitingIds b.disp y).Perm
      (((preparedMsgs b.disp.trace).filter (fun x => x.1 = y ∧ x.2.sendFlags &&& 0x40 ≠ 0)).map (·.2.packetId))) ∧
    (waitingIds b.disp (hostsB envB.m.host).addr).length = (b.calls.filter (·.reliable)).length := by
  intro a b hfa hfb
  obtain ⟨hua, hub⟩ := pair_usual hp
  have hta := usual_tidy hA hostsA eqA hua
  have htb := usual_tidy hB hostsB eqB hub
  have hto := pair_together hp hfa hfb
  have hack := noAckFlag_of_flags hta.reach hta.flags
  have hrem := usual_noRemoval hub
  have hperm : ∀ y, (waitingIds b.disp y).Perm
      (((preparedMsgs b.disp.trace).filter (fun x => x.1 = y ∧ x.2.sendFlags &&& 0x40 ≠ 0)).map (·.2.packetId)) := by
    intro y
    have hiff := C78_never_acknowledged hto hack y
    obtain ⟨ops, hops⟩ := htb.reach
    have hnd : (waitingIds b.disp y).Nodup := by
      unfold waitingIds
      cases hx : b.disp.circuits.get? y with
      | none => exact List.nodup_nil
      | some c =>
        have hb : b.disp = runOps envB.m.disp (DState.init hostsB) ops := hops
        rw [hb] at hx
        exact (C21_unacked_exact envB.m.disp hostsB ops y c hx).2.1
    have hnd2 : (((preparedMsgs b.disp.trace).filter (fun x => x.1 = y ∧ x.2.sendFlags &&& 0x40 ≠ 0)).map (·.2.packetId)).Nodup := by
      have h1 := C20_ids_distinct envB.m.disp hostsB ops y
      rw [← hops, outIds_history y _ (hrem y)] at h1
      refine h1.sublist ?_
      have e1 : ∀ l : List (Addr × Message), (l.filterMap fun x => if x.1 = y then some x.2.packetId else none) = (l.filter (fun x => x.1 = y)).map (·.2.packetId) := by
        intro l
        induction l with
        | nil => rfl
        | cons x l ih => by_cases hx : x.1 = y <;> simp [hx, ih]
      rw [e1]
      refine List.Sublist.map _ ?_
      have e2 : ((preparedMsgs b.disp.trace).filter (fun x => x.1 = y ∧ x.2.sendFlags &&& 0x40 ≠ 0)) =
          ((preparedMsgs b.disp.trace).filter (fun x => x.1 = y)).filter (fun x => x.2.sendFlags &&& 0x40 ≠ 0) := by
        rw [List.filter_filter]
        congr 1
        funext x
        simp [Bool.and_comm]
      rw [e2]
      exact List.filter_sublist
    rw [List.perm_ext_iff_of_nodup hnd hnd2]
    intro id
    rw [hiff id]
    simp only [List.mem_map, List.mem_filter, decide_eq_true_eq]
    constructor
    · rintro ⟨m, hm, h1, h2⟩
      exact ⟨(y, m), ⟨(out_history _ (hrem y)).mp hm, rfl, h2⟩, h1⟩
    · rintro ⟨⟨y', m⟩, ⟨hm, rfl, h2⟩, h1⟩
      exact ⟨m, (out_history _ (hrem y')).mpr hm, h1, h2⟩
  refine ⟨hperm, ?_⟩
  rw [(hperm _).length_eq, List.length_map]
  obtain ⟨hs1, hs2⟩ := C83_what_is_sent envB hB hostsB eqB asB hub hok hn
  have hs1 : ((preparedMsgs b.disp.trace).filter (fun x => x.2.name ≠ "PacketAck")).map visible = b.calls.map (wanted (hostsB envB.m.host).addr) := hs1
  have hs2 : ∀ x ∈ preparedMsgs b.disp.trace, x.2.name = "PacketAck" → x.2.sendFlags = 0 := fun x hx h => (hs2 x hx h).1
  have e1 : (preparedMsgs b.disp.trace).filter (fun x => x.1 = (hostsB envB.m.host).addr ∧ x.2.sendFlags &&& 0x40 ≠ 0) =
      ((preparedMsgs b.disp.trace).filter (fun x => x.2.name ≠ "PacketAck")).filter
        (fun x => (visible x).1 = (hostsB envB.m.host).addr ∧ (visible x).2.2.2 = true) := by
    rw [List.filter_filter]
    refine List.filter_congr ?_
    intro x hx
    by_cases hn' : x.2.name = "PacketAck"
    · simp [hn', hs2 x hx hn']
    · simp [hn', visible]
  rw [e1]
  have e2 : ∀ (l : List (Addr × Message)) (es : List QEntry), l.map visible = es.map (wanted (hostsB envB.m.host).addr) →
      (l.filter (fun x => (visible x).1 = (hostsB envB.m.host).addr ∧ (visible x).2.2.2 = true)).length = (es.filter (·.reliable)).length := by
    intro l
    induction l with
    | nil => intro es h; cases es with
      | nil => rfl
      | cons e es => simp at h
    | cons x l ih =>
      intro es h
      cases es with
      | nil => simp at h
      | cons e es =>
        rw [List.map_cons, List.map_cons] at h
        injection h with h1 h2
        have := ih es h2
        rw [List.filter_cons, List.filter_cons, h1]
        cases hr : e.reliable
        · rw [if_neg (by simp [wanted, hr]), if_neg (by simp)]; exact this
        · rw [if_pos (by simp [wanted, hr]), if_pos rfl, List.length_cons, List.length_cons, this]
  exact e2 _ _ hs1

/-- In the history of `pairMoves` A's reliable message reached B, B acknowledged it, A received that, and still waits. -/
example : waitingIds (runActs demoCEnv demoWorld (movesOf true pairMoves)).m.disp (dispHosts demoCEnv.m.host).addr = [2] ∧
    ((runActs demoCEnv demoWorld (movesOf true pairMoves)).m.calls.filter (·.reliable)).length = 1 := by decide +kernel

end Pyogp
