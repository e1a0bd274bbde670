import Verif.Proofs.Acks
import Verif.Proofs.HeaderId

/-! # Receiving one datagram -/

namespace Pyogp
open Spec

theorem decodeData_trusted {rt : Runtime} {t : Template} {data : Bytes} {m : Message} (h : decodeData rt (some t) data = .ok m) :
    m.trusted = false := by
  simp only [decodeData, ok_bind, bind_ok, liftPy_ok] at h
  obtain ⟨flags, _, pid, _, m₁, hap, off, _, ⟨bl, pos'⟩, _, h⟩ := h
  have h1 : m₁.trusted = false := by
    unfold decodeAckPart at hap
    split at hap
    · simp only [bind_ok] at hap
      obtain ⟨n, _, hap⟩ := hap
      obtain ⟨ids, post, _, _, _, rfl⟩ := decodeAcks_inv hap
      rfl
    · cases hap; rfl
  split at h
  · cases h
  · simp only [Except.ok.injEq] at h
    subst h
    simp only
    split <;> exact h1

theorem deserialize_trusted {env : DeserEnv} {st : DeserState} {dg : Bytes} {m : Message}
    (h : (deserialize env st dg).1 = .ok (some m)) : m.trusted = false := by
  obtain ⟨buf, acks, buf', t, _, _, _, _, _, _, hdd⟩ := deserialize_inv h
  exact decodeData_trusted hdd

/-- Whatever subscribers and sends do, no queue of ids to acknowledge changes, no datagram is received, no circuit
gets lost and the trust of circuits stays. -/
structure Quiet (st st' : DState) : Prop where
  trace : st.trace <+: st'.trace
  circ : ∀ a c, st.circuits.get? a = some c →
    ∃ c', st'.circuits.get? a = some c' ∧ c'.host = c.host ∧ c'.acks = c.acks ∧ c'.trusted = c.trusted
  pend : ∀ a, pending st' a = pending st a

theorem Quiet.refl (st : DState) : Quiet st st := ⟨List.prefix_refl _, fun _ c hc => ⟨c, hc, rfl, rfl, rfl⟩, fun _ => rfl⟩

theorem quiet_closed (env : DEnv) (st : DState) : SendClosed env (fun _ _ => True) (Quiet st) := by
  refine ⟨?_, ?_, ?_⟩
  · intro s r v _ h; exact ⟨h.trace, h.circ, h.pend⟩
  · intro s m h; exact ⟨h.trace.trans (List.prefix_append _ _), h.circ, h.pend⟩
  · intro s m r mode h
    have := transmit_keeps env s m r mode
    refine ⟨h.trace.trans this.trace, ?_, fun a => (this.pend a).trans (h.pend a)⟩
    intro a c hc
    obtain ⟨c1, h1, h2, h3, h4⟩ := h.circ a c hc
    obtain ⟨c2, h5, h6, h7, h8⟩ := this.circ a c1 h1
    exact ⟨c2, h5, h6.trans h2, h7.trans h3, h8.trans h4⟩

theorem handler_quiet (env : DEnv) (tr : List Ev) (m : Message) (n : Nat) (st : DState) :
    Quiet st ((env.handler tr m).run (sendWith env n) st).2 :=
  handler_preserves (quiet_closed env st) (fun _ _ => Prog.mutates_any _) tr m n st (Quiet.refl st)

theorem pending_find (st : DState) (r : HostRef) (a : Addr) : pending (findCircuit st r).1 a = pending st a := by
  obtain ⟨_, _, _, _, _, _, hg, hc⟩ := findCircuit_fields st r
  unfold pending
  rw [hg]
  by_cases h : (st.hosts r).addr = a ∧ st.circuits.get? a = none
  · simp only [h, and_self, if_true, hc, Option.getD_none]
  · simp only [h, if_false]

/-- The ids queued for the peer of `r` after `receive_check`, when the datagram was parsed on an untrusted circuit. -/
theorem receive_parsed (env : DEnv) (st : DState) (r : HostRef) (dg : Bytes) (m : Message)
    (hd : (deserialize (env.deser st.trace) st.deser dg).1 = .ok (some m))
    (ht : ∀ c, st.circuits.get? (st.hosts r).addr = some c → c.trusted = false) (a : Addr) :
    pending (receiveCheck env st r dg).2 a =
      pending st a ++ (if a = (st.hosts r).addr ∧ m.reliable = true then [m.packetId] else []) := by
  have hlen : 0 < dg.length := by have := deserialize_long hd; omega
  obtain ⟨hh, htr, _, _, _, hde, hg, hc⟩ := findCircuit_fields st r
  have hct : (findCircuit st r).2.trusted = false := by
    rw [hc]
    cases hx : st.circuits.get? (st.hosts r).addr with
    | none => rfl
    | some c => exact ht c hx
  have hpf := pending_find st r
  have hfg := findCircuit_get? st r
  unfold receiveCheck
  simp only [hlen, if_true, htr, hde, hd, hct, Bool.false_and, Bool.false_eq_true, if_false]
  have hbase : ∀ s : DState, (∀ x, pending s x = pending ((findCircuit st r).1.setCircuit (st.hosts r).addr ((findCircuit st r).2.handlePacket m)) x) →
      pending s a = pending st a ++ (if a = (st.hosts r).addr ∧ m.reliable = true then [m.packetId] else []) := by
    intro s hs
    rw [hs, pending_setCircuit]
    by_cases ha : (st.hosts r).addr = a
    · subst ha
      simp only [if_true, true_and]
      rw [(handlePacket_fields _ m).2.2.2.1, ← hpf]
      congr 1
      unfold pending; rw [hfg]
    · have : ¬ (a = (st.hosts r).addr ∧ m.reliable = true) := fun h => ha h.1.symm
      simp only [ha, this, if_false, List.append_nil, hpf]
  split
  · generalize hst2 : DState.log _ (Ev.delivered m) = st2
    have hq := handler_quiet env st2.trace m env.depth st2
    have h2 : ∀ x, pending st2 x = pending ((findCircuit st r).1.setCircuit (st.hosts r).addr ((findCircuit st r).2.handlePacket m)) x := by
      intro x; rw [← hst2]; rfl
    split
    · rename_i he; rw [he] at hq; exact hbase _ (fun x => (hq.pend x).trans (h2 x))
    · rename_i he; rw [he] at hq; exact hbase _ (fun x => (hq.pend x).trans (h2 x))
  · exact hbase _ (fun x => rfl)

/-- ... and when it was skipped. -/
theorem receive_unparsed (env : DEnv) (st : DState) (r : HostRef) (dg : Bytes)
    (hd : (deserialize (env.deser st.trace) st.deser dg).1 = .ok none) :
    ∃ id, id < 2 ^ 32 ∧ slice dg 1 5 = idBytes id ∧ (receiveCheck env st r dg).1 = .ok none ∧ ∀ a,
      pending (receiveCheck env st r dg).2 a = pending st a ++ (if a = (st.hosts r).addr then [id] else []) := by
  have hlong := deserialize_long hd
  have hlen : 0 < dg.length := by omega
  obtain ⟨hh, htr, _, _, _, hde, hg, hc⟩ := findCircuit_fields st r
  obtain ⟨p, hp, hsl, hu⟩ := unpackId env.ser.rt (d := dg) (by omega)
  have hpf := pending_find st r
  have hfg := findCircuit_get? st r
  have hrc : receiveCheck env st r dg = (.ok none, (({ ({ (findCircuit st r).1 with packetsIn := (findCircuit st r).1.packetsIn + 1 } : DState).log (.received (st.hosts r).addr dg) with
        deser := (deserialize (env.deser st.trace) st.deser dg).2 } : DState)).setCircuit (st.hosts r).addr ((findCircuit st r).2.collectAck p)) := by
    unfold receiveCheck
    simp only [hlen, if_true, htr, hde, hd, hu, Int.toNat_natCast]
  refine ⟨p, hp, hsl, by rw [hrc], ?_⟩
  intro a
  rw [hrc]
  simp only
  rw [pending_setCircuit]
  by_cases ha : (st.hosts r).addr = a
  · subst ha
    simp only [if_true, Circuit.collectAck]
    congr 1
    rw [← hpf]; unfold pending; rw [hfg]
  · have : ¬ (a = (st.hosts r).addr) := fun h => ha h.symm
    simp only [ha, this, if_false, List.append_nil]
    exact hpf a

/-- On a trusted circuit a parsed packet is dropped. -/
theorem receive_trusted (env : DEnv) (st : DState) (r : HostRef) (dg : Bytes) (m : Message) (c : Circuit)
    (hd : (deserialize (env.deser st.trace) st.deser dg).1 = .ok (some m))
    (hc : st.circuits.get? (st.hosts r).addr = some c) (ht : c.trusted = true) :
    (receiveCheck env st r dg).1 = .ok none ∧ (receiveCheck env st r dg).2.circuits = st.circuits ∧
      (receiveCheck env st r dg).2.trace = st.trace ++ [.received (st.hosts r).addr dg] := by
  have hlen : 0 < dg.length := by have := deserialize_long hd; omega
  have hf : findCircuit st r = (st, c) := by unfold findCircuit getCircuit; rw [hc]
  have htm := deserialize_trusted hd
  unfold receiveCheck
  simp only [hlen, if_true, hf, hd, ht, htm, Bool.not_false, Bool.and_self]
  exact ⟨trivial, rfl, rfl⟩

end Pyogp
