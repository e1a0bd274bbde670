import Verif.Proofs.Send
import Verif.Proofs.Receive

namespace Pyogp
open Spec

/-- The datagram a prepared packet becomes. -/
def datagramOf (env : DEnv) (x : Addr × Message) : Option (Addr × Bytes) :=
  match serialize env.ser x.2 with
  | .ok (some dg) => some (x.1, dg)
  | _ => none

/-- What holds of everything ever sent. -/
structure SentInv (env : DEnv) (st : DState) : Prop where
  last : ∀ a c, st.circuits.get? a = some c → c.lastOut ≤ (preparedMsgs st.trace).length
  acks : ∀ a c, st.circuits.get? a = some c → ∀ id ∈ c.acks, id < 2 ^ 32
  ids : ∀ x ∈ preparedMsgs st.trace, x.2.packetId ≤ (preparedMsgs st.trace).length
  flags : ∀ x ∈ preparedMsgs st.trace, x.2.sendFlags ∈ [0, 0x20, 0x40] ∨ (x.2.sendFlags ∈ [0x10, 0x30, 0x50] ∧ x.2.name ≠ "PacketAck")
  sent : (sentDatagrams st.trace).Sublist ((preparedMsgs st.trace).filterMap (datagramOf env))
  all : (∀ tr a dg, env.net tr a dg = true) → sentDatagrams st.trace = (preparedMsgs st.trace).filterMap (datagramOf env)

theorem sentDatagrams_append (a b : List Ev) : sentDatagrams (a ++ b) = sentDatagrams a ++ sentDatagrams b := by
  simp [sentDatagrams]

theorem SentInv.logSilent {env : DEnv} {st st' : DState} {e : Ev} (h : SentInv env st) (he : preparedMsgs [e] = []) (he' : sentDatagrams [e] = [])
    (ht : st'.trace = st.trace ++ [e])
    (hc : ∀ a c, st'.circuits.get? a = some c → c.lastOut ≤ (preparedMsgs st.trace).length ∧ ∀ id ∈ c.acks, id < 2 ^ 32) : SentInv env st' := by
  have h1 : preparedMsgs st'.trace = preparedMsgs st.trace := by rw [ht, preparedMsgs_append, he, List.append_nil]
  have h2 : sentDatagrams st'.trace = sentDatagrams st.trace := by rw [ht, sentDatagrams_append, he', List.append_nil]
  refine ⟨?_, ?_, ?_, ?_, ?_, ?_⟩
  · intro a c h3; rw [h1]; exact (hc a c h3).1
  · intro a c h3; exact (hc a c h3).2
  · rw [h1]; exact h.ids
  · rw [h1]; exact h.flags
  · rw [h1, h2]; exact h.sent
  · rw [h1, h2]; exact h.all

theorem SentInv.quiet {env : DEnv} {st st' : DState} (h : SentInv env st) (ht : st'.trace = st.trace)
    (hc : ∀ a c, st'.circuits.get? a = some c → c.lastOut ≤ (preparedMsgs st.trace).length ∧ ∀ id ∈ c.acks, id < 2 ^ 32) : SentInv env st' := by
  refine ⟨?_, ?_, ?_, ?_, ?_, ?_⟩
  · intro a c h3; rw [ht]; exact (hc a c h3).1
  · intro a c h3; exact (hc a c h3).2
  · rw [ht]; exact h.ids
  · rw [ht]; exact h.flags
  · rw [ht]; exact h.sent
  · rw [ht]; exact h.all

theorem SentInv.both {env : DEnv} {st : DState} (h : SentInv env st) (a : Addr) (c : Circuit) (hc : st.circuits.get? a = some c) :
    c.lastOut ≤ (preparedMsgs st.trace).length ∧ ∀ id ∈ c.acks, id < 2 ^ 32 := ⟨h.last a c hc, h.acks a c hc⟩

theorem SentInv.set {env : DEnv} {st : DState} (h : SentInv env st) {a : Addr} {c c' : Circuit} (hc : st.circuits.get? a = some c)
    (hl : c'.lastOut = c.lastOut) (ha : ∀ id ∈ c'.acks, id < 2 ^ 32) (b : Addr) (d : Circuit) (hd : (st.setCircuit a c').circuits.get? b = some d) :
    d.lastOut ≤ (preparedMsgs st.trace).length ∧ ∀ id ∈ d.acks, id < 2 ^ 32 := by
  simp only [DState.setCircuit, Dict.get?_set] at hd
  split at hd
  · cases hd; rw [hl]; exact ⟨h.last a c hc, ha⟩
  · exact h.both b d hd

theorem prepared_flags (c : Circuit) (m : Message) (mode : SendMode) :
    (preparedMsg c m mode.flag mode.retries).sendFlags ∈ [0, 0x20, 0x40] ∨
      ((preparedMsg c m mode.flag mode.retries).sendFlags ∈ [0x10, 0x30, 0x50] ∧ (preparedMsg c m mode.flag mode.retries).name ≠ "PacketAck") := by
  unfold preparedMsg
  split
  · rename_i h
    refine .inr ⟨?_, h.2⟩
    cases mode <;> simp [SendMode.flag, flagAck]
  · refine .inl ?_
    cases mode <;> simp [SendMode.flag]

theorem find_bounds {env : DEnv} {st : DState} (h : SentInv env st) (r : HostRef) :
    (findCircuit st r).2.lastOut ≤ (preparedMsgs st.trace).length ∧ ∀ id ∈ (findCircuit st r).2.acks, id < 2 ^ 32 := by
  obtain ⟨_, _, _, _, _, _, _, hc⟩ := findCircuit_fields st r
  rw [hc]
  cases hx : st.circuits.get? (st.hosts r).addr with
  | none => exact ⟨Nat.zero_le _, by intro id hid; cases hid⟩
  | some c => exact h.both _ c hx

theorem SentInv.transmit {env : DEnv} {st : DState} (h : SentInv env st) (m : Message) (r : HostRef) (mode : SendMode) :
    SentInv env (Pyogp.transmit env st m r mode).2 := by
  obtain ⟨h1, h2, _⟩ := transmit_trace env st m r mode
  have hpm : preparedMsgs (Pyogp.transmit env st m r mode).2.trace = preparedMsgs st.trace ++ [((st.hosts r).addr, (mode.prepare (findCircuit st r).2 m).2)] := by
    rw [h1, preparedMsgs_append]
    congr 1
    split <;> rfl
  have hsd : sentDatagrams (Pyogp.transmit env st m r mode).2.trace = sentDatagrams st.trace ++
      (match (Pyogp.transmit env st m r mode).1 with | .ok (some dg) => [((st.hosts r).addr, dg)] | _ => []) := by
    rw [h1, sentDatagrams_append]
    congr 1
    generalize (Pyogp.transmit env st m r mode).1 = o
    rcases o with e | _ | dg <;> rfl
  have hb := find_bounds h r
  refine ⟨?_, ?_, ?_, ?_, ?_, ?_⟩
  · intro a c hc
    rw [hpm, List.length_append]
    rw [transmit_get?] at hc
    split at hc
    · rename_i ha
      cases hc
      rw [prepare_lastOut]
      have : (Option.getD (Dict.get? st.circuits a) { host := r }).lastOut ≤ (preparedMsgs st.trace).length := by
        cases hx : st.circuits.get? a with
        | none => exact Nat.zero_le _
        | some c => exact h.last _ c hx
      simp only [List.length_singleton]
      omega
    · have := h.last a c hc; omega
  · intro a c hc
    rw [transmit_get?] at hc
    split at hc
    · cases hc
      rw [prepare_acks]
      cases hx : st.circuits.get? a with
      | none => intro id hid; cases hid
      | some c => exact h.acks _ c hx
    · exact h.acks a c hc
  · intro x hx
    rw [hpm] at hx ⊢
    rw [List.length_append]
    rcases List.mem_append.mp hx with hx | hx
    · have := h.ids x hx; omega
    · rw [List.mem_singleton] at hx
      subst hx
      simp only [prepare_eq, preparedMsg_id, List.length_singleton]
      have := hb.1; omega
  · intro x hx
    rw [hpm] at hx
    rcases List.mem_append.mp hx with hx | hx
    · exact h.flags x hx
    · rw [List.mem_singleton] at hx
      subst hx
      simp only [prepare_eq]
      exact prepared_flags _ _ _
  · rw [hpm, hsd, List.filterMap_append]
    refine h.sent.append ?_
    split
    · rename_i dg hdg
      have : datagramOf env ((st.hosts r).addr, (mode.prepare (findCircuit st r).2 m).2) = some ((st.hosts r).addr, dg) := by
        simp only [datagramOf, h2 dg hdg]
      rw [List.filterMap_cons_some this]
      exact List.Sublist.refl _
    · exact List.nil_sublist _
  · intro hn
    rw [hpm, hsd, List.filterMap_append, h.all hn]
    congr 1
    cases hs : serialize env.ser (mode.prepare (findCircuit st r).2 m).2 with
    | error e =>
      have hd : datagramOf env ((st.hosts r).addr, (mode.prepare (findCircuit st r).2 m).2) = none := by simp only [datagramOf, hs]
      rw [List.filterMap_cons_none hd, List.filterMap_nil]
      split
      · rename_i dg hdg; have := h2 dg hdg; rw [hs] at this; cases this
      · rfl
    | ok o =>
      cases o with
      | none =>
        have hd : datagramOf env ((st.hosts r).addr, (mode.prepare (findCircuit st r).2 m).2) = none := by simp only [datagramOf, hs]
        rw [List.filterMap_cons_none hd, List.filterMap_nil]
        split
        · rename_i dg hdg; have := h2 dg hdg; rw [hs] at this; cases this
        · rfl
      | some dg =>
        have hd : datagramOf env ((st.hosts r).addr, (mode.prepare (findCircuit st r).2 m).2) = some ((st.hosts r).addr, dg) := by simp only [datagramOf, hs]
        rw [List.filterMap_cons_some hd, List.filterMap_nil]
        have : (Pyogp.transmit env st m r mode).1 = .ok (some dg) := by
          rw [transmit_eq]
          unfold handToSocket
          simp only [hs, hn, if_true]
        rw [this]

theorem SentInv.closed (env : DEnv) : Closed env (fun _ _ => True) (SentInv env) := by
  refine { hosts := ?_, outgoing := ?_, transmit := ?_, received := ?_, collect := ?_, parsed := ?_, delivered := ?_, cleared := ?_, remove := ?_, trust := ?_ }
  · intro st r v _ h; exact h.quiet rfl h.both
  · intro st m h; exact h.logSilent rfl rfl rfl h.both
  · intro st m r mode h; exact h.transmit m r mode
  · intro st r dg h
    obtain ⟨_, htr, _, _, _, _, hg, _⟩ := findCircuit_fields st r
    refine h.logSilent (e := .received (st.hosts r).addr dg) rfl rfl ?_ ?_
    · simp only [DState.log, htr]
    · intro a c hc
      have hc' : (findCircuit st r).1.circuits.get? a = some c := hc
      rw [hg] at hc'
      split at hc'
      · cases hc'; exact find_bounds h r
      · exact h.both a c hc'
  · intro st a c pid h hc hp
    refine h.quiet rfl (h.set hc rfl ?_)
    intro id hid
    rcases List.mem_append.mp hid with hid | hid
    · exact h.acks a c hc id hid
    · rw [List.mem_singleton] at hid; rw [hid]; exact hp
  · intro st a c m h hc hp
    refine h.logSilent rfl rfl rfl (h.set hc ?_ ?_)
    · exact (handlePacket_fields c m).2.2.1
    · intro id hid
      rw [(handlePacket_fields c m).2.2.2.1] at hid
      rcases List.mem_append.mp hid with hid | hid
      · exact h.acks a c hc id hid
      · split at hid
        · rw [List.mem_singleton] at hid; rw [hid]; exact hp
        · cases hid
  · intro st m h; exact h.logSilent rfl rfl rfl h.both
  · intro st a c h hc
    exact h.quiet rfl (h.set hc rfl (by intro id hid; cases hid))
  · intro st r h
    refine h.logSilent rfl rfl rfl ?_
    intro a c hc
    simp only [DState.log, removeCircuitData] at hc
    split at hc
    · rw [Dict.get?_del] at hc
      split at hc
      · cases hc
      · exact h.both a c hc
    · exact h.both a c hc
  · intro st a c x h hc
    exact h.quiet rfl (h.set hc rfl (h.acks a c hc))

theorem reachable_sent (env : DEnv) (hosts : HostRef → Host) (ops : List Op) : SentInv env (runOps env (DState.init hosts) ops) :=
  runOps_preserves (SentInv.closed env) (fun _ _ => Prog.mutates_any _) ops (fun _ _ _ _ _ => trivial) _
    ⟨(by intro a c h; cases h), (by intro a c h; cases h), (by intro x h; cases h), (by intro x h; cases h), List.Sublist.refl _, fun _ => rfl⟩

end Pyogp
