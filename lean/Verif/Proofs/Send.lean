import Verif.Proofs.Acks
import Verif.Proofs.Serialize
import Verif.Props.Transmit

/-! # Sending one message -/

namespace Pyogp
open Spec

/-- A send that returns normally to a valid host ends with a transmission, in a state that has everything sends preserve. -/
theorem send_ok_transmit {env : DEnv} {P : DState → Prop} (hc : SendClosed env (fun _ _ => True) P) {n : Nat} {st st' : DState} {m : Message}
    {r : HostRef} {mode : SendMode} {o : Option Bytes} (hP : P st) (hok : (st.hosts r).isOk = true)
    (hs : sendWith env n st m r mode = (.ok o, st')) :
    ∃ st1, P st1 ∧ transmit env st1 m r mode = (.ok o, st') ∧ (env.handleOutgoing = false → st1 = st) := by
  cases n with
  | zero => cases hs
  | succ n =>
    unfold sendWith at hs
    simp only [hok, Bool.not_true, Bool.false_eq_true, if_false] at hs
    split at hs
    · rename_i hb
      have hk := Prog.run_preserves hc.hosts (sendWith_preserves hc (fun _ _ => Prog.mutates_any _) n)
        (env.handler (st.log (.outgoing m)).trace m) (st.log (.outgoing m)) (Prog.mutates_any _) (hc.outgoing st m hP)
      split at hs
      · cases hs
      · rename_i st1 he
        rw [he] at hk
        exact ⟨st1, hk, hs, by rw [hb]; intro h; cases h⟩
    · exact ⟨st, hP, hs, fun _ => rfl⟩

/-- The header of a serialized message. -/
theorem serialize_header {env : SerEnv} {m : Message} {dg : Bytes} (h : serialize env m = .ok (some dg)) (hf : m.sendFlags < 256)
    (hp : m.packetId < 2 ^ 31) : ∃ tail, dg = UInt8.ofNat m.sendFlags :: (idBytes m.packetId ++ [0] ++ tail) := by
  obtain ⟨t, fl, pid, body, ht, hx, _, _, hb⟩ := serialize_inv h
  rw [serialize_ok env m ht hx hf hp hb] at h
  cases h
  exact ⟨_, rfl⟩

theorem preparedMsg_flags_lt (c : Circuit) (m : Message) (mode : SendMode) :
    (preparedMsg c m mode.flag mode.retries).sendFlags < 256 := by
  unfold preparedMsg
  cases mode <;> split <;> simp [SendMode.flag, flagAck]

/-- What one transmission adds to the trace. -/
theorem transmit_trace (env : DEnv) (st : DState) (m : Message) (r : HostRef) (mode : SendMode) :
    (transmit env st m r mode).2.trace = st.trace ++
      (.prepared (st.hosts r).addr (mode.prepare (findCircuit st r).2 m).2 ::
        (match (transmit env st m r mode).1 with
         | .ok (some dg) => [.sent (st.hosts r).addr dg]
         | _ => [])) ∧
    (∀ dg, (transmit env st m r mode).1 = .ok (some dg) → serialize env.ser (mode.prepare (findCircuit st r).2 m).2 = .ok (some dg)) ∧
    (transmit env st m r mode).2.packetsOut = st.packetsOut + (match (transmit env st m r mode).1 with | .ok (some _) => 1 | _ => 0) := by
  have hf := preparedState_fields st m r mode
  rw [transmit_eq]
  rcases handToSocket_cases env (preparedState st m r mode) (st.hosts r).addr (mode.prepare (findCircuit st r).2 m).2 with h | ⟨dg, h1, _, h⟩
  · rw [h]
    generalize hsf : sendFailed (mode.prepare (findCircuit st r).2 m).2 = o
    have hne : ∀ dg, o ≠ .ok (some dg) := fun dg hd => sendFailed_ne _ dg (hsf.trans hd)
    refine ⟨?_, (fun dg hdg => absurd hdg (hne dg)), ?_⟩
    · rw [hf.2.1]
      match o, hne with
      | .ok (some dg), hne => exact absurd rfl (hne dg)
      | .ok none, _ => rfl
      | .error _, _ => rfl
    · rw [hf.2.2.2.1]
      match o, hne with
      | .ok (some dg), hne => exact absurd rfl (hne dg)
      | .ok none, _ => rfl
      | .error _, _ => rfl
  · rw [h]
    refine ⟨?_, (by intro dg' hdg; cases hdg; exact h1), ?_⟩
    · simp only [DState.log]; rw [hf.2.1]; simp
    · simp [hf.2.2.2.1]

theorem history_out_length {h : List CEv} {c : Circuit} (hi : CircInv h c) : (outIds h).length = c.lastOut := by
  rw [hi.ids]; simp

/-- The circuit a transmission uses has sent as many packets as the trace says. -/
theorem find_lastOut {st : DState} (hi : Inv st) (r : HostRef) :
    (findCircuit st r).2.lastOut = (outIds (circuitHistory (st.hosts r).addr st.trace)).length := by
  have h := (hi.find r).circ _ _ (findCircuit_get? st r)
  rw [(findCircuit_fields st r).2.1] at h
  exact (history_out_length h).symm

end Pyogp

namespace Pyogp
open Spec

/-- All parts of a serialized message, whatever its id. -/
theorem serialize_ok' {env : SerEnv} {m : Message} {dg : Bytes} (h : serialize env m = .ok (some dg)) (hf : m.sendFlags < 256) :
    ∃ t pid body, env.dict.getTemplate m.name = some t ∧
      packData env.rt (.num (.int m.packetId)) .s32 (some .big) = .ok pid ∧ buildBlocks env.rt m t.blocks = .ok body ∧
      dg = UInt8.ofNat m.sendFlags :: (pid ++ [0] ++ (t.msgNumHex ++ body ++ extraBytes t)) := by
  have h0 : packData env.rt (.num (.int 0)) .u8 = .ok [0] := packU8 env.rt (n := 0) (by omega)
  unfold serialize at h
  split at h
  · cases h
  · rename_i t ht
    simp only [bind_ok] at h
    obtain ⟨al, hal, h⟩ := h
    cases al
    · simp at h
    · simp only [Bool.not_true, Bool.false_eq_true, if_false, bind_ok] at h
      obtain ⟨fl, hfl, pid, hpid, off, hoff, body, hbody, h⟩ := h
      have e1 := hfl.symm.trans (packU8 env.rt hf)
      have e2 := hoff.symm.trans h0
      have e1' := Except.ok.inj e1
      have e2' := Except.ok.inj e2
      have h' := Option.some.inj (Except.ok.inj h)
      rw [e1', e2'] at h'
      exact ⟨t, pid, body, ht, hpid, hbody, by rw [← h']; unfold extraBytes; simp only [List.append_assoc, List.cons_append, List.nil_append]⟩

end Pyogp

namespace Pyogp
open Spec

theorem prepare_alive (mode : SendMode) (c : Circuit) (p : Message) : (mode.prepare c p).1.alive = c.alive := by
  rw [prepare_eq]; simp only; split <;> rfl

/-- All circuits are alive. -/
theorem alive_closed (env : DEnv) : Closed env (fun _ _ => True) (fun st => ∀ a c, st.circuits.get? a = some c → c.alive = true) := by
  have hset : ∀ (st : DState) (a : Addr) (c c' : Circuit), (∀ a c, st.circuits.get? a = some c → c.alive = true) →
      st.circuits.get? a = some c → c'.alive = c.alive →
      ∀ b d, (st.setCircuit a c').circuits.get? b = some d → d.alive = true := by
    intro st a c c' h hc he b d hd
    simp only [DState.setCircuit, Dict.get?_set] at hd
    split at hd
    · rename_i hab; subst hab; cases hd; rw [he]; exact h _ _ hc
    · exact h _ _ hd
  refine { hosts := ?_, outgoing := ?_, transmit := ?_, received := ?_, collect := ?_, parsed := ?_, delivered := ?_, cleared := ?_, remove := ?_, trust := ?_ }
  · intro st r v _ h; exact h
  · intro st m h; exact h
  · intro st m r mode h b d hd
    rw [transmit_get?] at hd
    split at hd
    · cases hd
      rw [prepare_alive]
      cases hx : st.circuits.get? b with
      | none => rfl
      | some c => exact h b c hx
    · exact h b d hd
  · intro st r dg h b d hd
    obtain ⟨_, _, _, _, _, _, hg, hc⟩ := findCircuit_fields st r
    have hd' : (findCircuit st r).1.circuits.get? b = some d := hd
    rw [hg] at hd'
    split at hd'
    · rename_i hb
      cases hd'
      rw [hc, hb.1, hb.2]; rfl
    · exact h _ _ hd'
  · intro st a c pid h hc _; exact hset st a c _ h hc rfl
  · intro st a c m h hc _; exact hset st a c _ h hc (handlePacket_fields c m).2.2.2.2.1
  · intro st m h; exact h
  · intro st a c h hc; exact hset st a c _ h hc rfl
  · intro st r h b d hd
    simp only [DState.log, removeCircuitData] at hd
    split at hd
    · rw [Dict.get?_del] at hd
      split at hd
      · cases hd
      · exact h b d hd
    · exact h b d hd
  · intro st a c x h hc; exact hset st a c _ h hc rfl

/-! ## Sends that do not raise -/

theorem send_default {env : DEnv} (hb : env.handleOutgoing = false) (hd : 0 < env.depth) (st : DState) (m : Message) (r : HostRef)
    (mode : SendMode) :
    send env st m r mode = if (st.hosts r).isOk then transmit env st m r mode else (.ok none, st) := by
  unfold send
  obtain ⟨n, hn⟩ : ∃ n, env.depth = n + 1 := ⟨env.depth - 1, by omega⟩
  rw [hn]
  unfold sendWith
  cases h : (st.hosts r).isOk <;> simp [hb]

/-- With the default setting a send of a message that can be shown never raises. -/
theorem send_default_ok {env : DEnv} (hb : env.handleOutgoing = false) (hd : 0 < env.depth) (st : DState) (m : Message) (r : HostRef)
    (mode : SendMode) (hr : ∃ t, m.render = .ok t) : ∃ o st', send env st m r mode = (.ok o, st') ∧ st'.hosts = st.hosts := by
  rw [send_default hb hd]
  split
  · obtain ⟨o, ho⟩ := transmit_total env st m r mode hr
    exact ⟨o, _, Prod.ext ho rfl, (transmit_keeps _ _ _ _ _).hosts⟩
  · exact ⟨_, _, rfl, rfl⟩

theorem ackLoop_noerr {env : DEnv} (hb : env.handleOutgoing = false) (hd : 0 < env.depth) (h : HostRef) : ∀ (ids : List Nat) (n : Nat) (msg : Message)
    (st : DState), (n ≠ 0 → ∃ l, IsAckFor msg l) →
    ∃ n' msg' st', ackLoop env h ids n msg st = (.ok (n', msg'), st') ∧ st'.hosts = st.hosts ∧ (n' ≠ 0 → ∃ l, IsAckFor msg' l) := by
  intro ids
  induction ids with
  | nil => intro n msg st hm; exact ⟨_, _, _, rfl, rfl, hm⟩
  | cons pid ids ih =>
    intro n msg st hm
    have h1 : ∃ l, IsAckFor (addAckBlock (if n = 0 then Message.new "PacketAck" [] else msg) pid) l := by
      by_cases hn : n = 0
      · simp only [hn, if_true]; exact ⟨_, packetAck_add [] _ (.inr ⟨rfl, rfl⟩) pid⟩
      · obtain ⟨l, hl⟩ := hm hn
        simp only [hn, if_false]; exact ⟨_, packetAck_add l _ (.inl hl) pid⟩
    unfold ackLoop
    simp only
    generalize addAckBlock (if n = 0 then Message.new "PacketAck" [] else msg) pid = msg1 at h1
    split
    · obtain ⟨l, hl⟩ := h1
      obtain ⟨o, st', hs, hh⟩ := send_default_ok hb hd st msg1 h .plain (IsAckFor.render hl)
      rw [hs, ← hh]
      exact ih _ _ _ (fun h => absurd rfl h)
    · exact ih _ _ _ (fun _ => h1)

theorem ackCircuit_noerr {env : DEnv} (hb : env.handleOutgoing = false) (hd : 0 < env.depth) (st : DState) (a : Addr) :
    ∃ st', ackCircuit env st a = (.ok (), st') ∧ st'.hosts = st.hosts := by
  unfold ackCircuit
  split
  · exact ⟨_, rfl, rfl⟩
  · rename_i c _
    obtain ⟨n, msg, st1, h1, g1, hm⟩ := ackLoop_noerr hb hd c.host c.acks 0 (Message.new "PacketAck" []) st (fun h => absurd rfl h)
    simp only [h1]
    have : ∃ o st2, (if 0 < n then send env st1 msg c.host .plain else (.ok none, st1)) = (Except.ok o, st2) ∧ st2.hosts = st1.hosts := by
      split
      · rename_i hn
        obtain ⟨l, hl⟩ := hm (by omega)
        exact send_default_ok hb hd _ _ _ _ (IsAckFor.render hl)
      · exact ⟨_, _, rfl, rfl⟩
    obtain ⟨o, st2, h2, g2⟩ := this
    simp only [h2]
    split <;> exact ⟨_, rfl, g2.trans g1⟩

theorem sendAcks_noerr {env : DEnv} (hb : env.handleOutgoing = false) (hd : 0 < env.depth) : ∀ (order : List Addr) (st : DState),
    ∃ st', sendAcks env order st = (.ok (), st') ∧ st'.hosts = st.hosts := by
  intro order
  induction order with
  | nil => intro st; exact ⟨_, rfl, rfl⟩
  | cons a as ih =>
    intro st
    obtain ⟨st', h, g⟩ := ackCircuit_noerr hb hd st a
    unfold sendAcks
    rw [h, ← g]
    exact ih _

end Pyogp
