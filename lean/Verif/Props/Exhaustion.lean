import Verif.Proofs.Exhaustion
import Verif.Proofs.DispatcherInv
import Verif.Props.Circuit

/-! # C98: packet ids run out

The id of a packet is written as a signed 32-bit number and never starts again at 1. -/

namespace Pyogp
open Spec

/-- **C98.** Under Python 2.7 fewer than `2^31` datagrams are ever sent to an address while its circuit is kept, whatever the history. -/
theorem C98_at_most (env : DEnv) (hv : env.ser.rt.ver = .v27) (hosts : HostRef → Host) (ops : List Op) (a : Addr) :
    (sentTo a (sinceRemoval a (runOps env (DState.init hosts) ops).trace)).length < 2 ^ 31 :=
  ((runOps_preserves (Counted.closed hv) (fun _ _ => Prog.mutates_any _) ops (fun _ _ _ _ _ => trivial) (DState.init hosts)
    (fun _ => ⟨Nat.le_refl _, by simp [DState.init, sinceRemoval, sentTo, sentDatagrams]⟩)) a).2

/-- **C98.** Once `2^31 - 1` packets have been prepared for an address, nothing is sent to it any more, whatever happens next (acknowledgements included),
unless its circuit is removed. -/
theorem C98_silent (env : DEnv) (hv : env.ser.rt.ver = .v27) (hosts : HostRef → Host) (ops later : List Op) (a : Addr)
    (h : 2 ^ 31 - 1 ≤ (outIds (circuitHistory a (runOps env (DState.init hosts) ops).trace)).length) :
    ∃ new, (runOps env (runOps env (DState.init hosts) ops) later).trace = (runOps env (DState.init hosts) ops).trace ++ new ∧
      (Ev.removed a ∉ new → sentTo a new = []) := by
  have hi := reachable_inv env hosts ops
  generalize runOps env (DState.init hosts) ops = st at *
  have h0 : Spent st.trace a st := by
    refine ⟨[], by simp, .inr ⟨rfl, ?_⟩⟩
    cases hg : st.circuits.get? a with
    | none =>
      exfalso
      rw [hi.absent a hg] at h
      simp [outIds] at h
    | some c =>
      rw [history_out_length (hi.circ a c hg)] at h
      exact h
  obtain ⟨new, e, hx⟩ := runOps_preserves (Spent.closed hv st.trace a) (fun _ _ => Prog.mutates_any _) later (fun _ _ _ _ _ => trivial) st h0
  refine ⟨new, e, fun hn => ?_⟩
  rcases hx with hx | hx
  · exact absurd hx hn
  · exact hx.1

/-- **C98.** From then on no send to it succeeds: it sends nothing, and raises only if the message cannot be shown. -/
theorem C98_send_fails (env : DEnv) (hv : env.ser.rt.ver = .v27) (hosts : HostRef → Host) (ops : List Op) (hb : env.handleOutgoing = false)
    (hd : 0 < env.depth) (m : Message) (r : HostRef) (mode : SendMode)
    (h : let st := runOps env (DState.init hosts) ops
      2 ^ 31 - 1 ≤ (outIds (circuitHistory (st.hosts r).addr st.trace)).length) :
    (∀ dg, (send env (runOps env (DState.init hosts) ops) m r mode).1 ≠ .ok (some dg)) ∧
    ((∃ t, m.render = .ok t) → (send env (runOps env (DState.init hosts) ops) m r mode).1 = .ok none) := by
  have hi := reachable_inv env hosts ops
  generalize runOps env (DState.init hosts) ops = st at *
  have h1 : ∀ dg, (send env st m r mode).1 ≠ .ok (some dg) := by
    intro dg hs
    rw [send_default hb hd] at hs
    split at hs
    · have := transmit_spent hv st m r mode dg hs
      rw [find_lastOut hi r] at this
      simp only at h
      omega
    · cases hs
  refine ⟨h1, fun hr => ?_⟩
  obtain ⟨o, st', e, _⟩ := send_default_ok hb hd st m r mode hr
  have h2 := h1
  rw [e] at h2 ⊢
  cases o with
  | none => rfl
  | some dg => exact absurd rfl (h2 dg)

theorem idBytes_mod (p : Nat) : idBytes p = idBytes (p % 2 ^ 32) := by
  simp only [idBytes, List.cons.injEq, and_true]
  refine ⟨?_, ?_, ?_, ?_⟩ <;> (apply UInt8.toNat.inj; simp <;> omega)

theorem packPid_lt (rt : Runtime) {p : Nat} (hp : p < 2 ^ 31) : packData rt (.num (.int p)) .s32 (some .big) = .ok (idBytes p) := by
  have h : packData rt (.num (.int p)) .s32 (some .big) = structPack rt.ver .big .i (p : Int) := rfl
  rw [h]
  unfold structPack
  have hhi : IntFmt.i.hi = 2147483648 := by decide
  have hlo : IntFmt.i.lo = -2147483648 := by decide
  rw [if_pos (by rw [hhi, hlo]; omega)]
  have : ((p : Int) % (2 ^ (8 * IntFmt.i.size) : Nat)).toNat = p := by
    have : IntFmt.i.size = 4 := rfl
    rw [this]
    omega
  rw [this]
  simp only [Endian.order, idBytes, IntFmt.size, leBytes, List.reverse_cons, List.reverse_nil, List.nil_append, List.cons_append, Except.ok.injEq,
    List.cons.injEq, and_true]
  refine ⟨?_, ?_, ?_, ?_⟩ <;> (apply UInt8.toNat.inj; simp <;> omega)

theorem packPid_v26 {rt : Runtime} (hv : rt.ver = .v26) (p : Nat) : packData rt (.num (.int p)) .s32 (some .big) = .ok (idBytes p) := by
  have h : packData rt (.num (.int p)) .s32 (some .big) = structPack rt.ver .big .i (p : Int) := rfl
  rw [h, hv]
  unfold structPack
  have : ((p : Int) % (2 ^ (8 * IntFmt.i.size) : Nat)).toNat = p % 2 ^ 32 := by
    have : IntFmt.i.size = 4 := rfl
    rw [this]
    omega
  rw [this]
  have e : Endian.big.order (leBytes IntFmt.i.size (p % 2 ^ 32)) = idBytes p := by
    simp only [Endian.order, idBytes, IntFmt.size, leBytes, List.reverse_cons, List.reverse_nil, List.nil_append, List.cons_append, List.cons.injEq, and_true]
    refine ⟨?_, ?_, ?_, ?_⟩ <;> (apply UInt8.toNat.inj; simp <;> omega)
  rw [e]
  have hs : IntFmt.i.size ≠ 8 := by decide
  split
  · rfl
  · simp

/-- **C98.** Under Python 2.6 ids never run out: a message that can be sent with one id can be sent with any, and only the id in the header differs. -/
theorem C98_python26 (env : SerEnv) (hv : env.rt.ver = .v26) (m : Message) (hf : m.sendFlags < 256) (dg : Bytes)
    (h : serialize env m = .ok (some dg)) (p : Nat) :
    serialize env { m with packetId := p } = .ok (some (dg.take 1 ++ idBytes p ++ dg.drop 5)) := by
  obtain ⟨t, fl, pid, body, ht, hx, hfl, hp, hb⟩ := serialize_inv h
  obtain ⟨t', pid', body', ht', hp', hb', hd⟩ := serialize_ok' h hf
  cases ht.symm.trans ht'
  cases hb.symm.trans hb'
  rw [packPid_v26 hv] at hp'
  cases hp'
  have hb2 : buildBlocks env.rt { m with packetId := p } t.blocks = .ok body := by rw [← hb]; exact buildBlocks_congr (fun _ _ => rfl)
  have h0 : packData env.rt (.num (.int 0)) .u8 = .ok [0] := packU8 env.rt (n := 0) (by omega)
  unfold serialize
  simp only [ht, hx, packU8 env.rt hf, packPid_v26 hv, h0, hb2, hd]
  simp [bind, Except.bind, extraBytes, idBytes]

/-- **C98.** Ids go round: the header of a datagram tells how many packets were prepared before it only modulo `2^32` (only Python 2.6 gets that far). -/
theorem C98_wraps (env : DEnv) (hosts : HostRef → Host) (ops : List Op) (hb : env.handleOutgoing = false)
    (hd : 0 < env.depth) (m : Message) (r : HostRef) (mode : SendMode) (dg : Bytes)
    (h : (send env (runOps env (DState.init hosts) ops) m r mode).1 = .ok (some dg)) :
    let st := runOps env (DState.init hosts) ops
    slice dg 1 5 = idBytes (((outIds (circuitHistory (st.hosts r).addr st.trace)).length + 1) % 2 ^ 32) := by
  have hi := reachable_inv env hosts ops
  generalize runOps env (DState.init hosts) ops = st at *
  intro st'
  rw [send_default hb hd] at h
  split at h
  · have h2 := (transmit_trace env st m r mode).2.1 dg h
    rw [prepare_eq] at h2
    have hfl := preparedMsg_flags_lt (findCircuit st r).2 m mode
    have hid := preparedMsg_id (findCircuit st r).2 m mode.flag mode.retries
    rw [find_lastOut hi r] at hid
    obtain ⟨t, pid, body, _, hp, _, hdg⟩ := serialize_ok' h2 hfl
    have hpid : pid = idBytes (preparedMsg (findCircuit st r).2 m mode.flag mode.retries).packetId := by
      cases hv : env.ser.rt.ver with
      | v26 => rw [packPid_v26 hv] at hp; exact (Except.ok.inj hp).symm
      | v27 =>
        have hlt := serialize_small hv hfl h2
        rw [packPid_lt env.ser.rt hlt] at hp
        exact (Except.ok.inj hp).symm
    rw [hdg, hpid, hid, ← idBytes_mod]
    rfl
  · cases h

/-- Any number of packets can be prepared for an address. -/
theorem prepared_any (env : DEnv) (hosts : HostRef → Host) (hb : env.handleOutgoing = false) (hd : 0 < env.depth) (m : Message) (r : HostRef)
    (hok : (hosts r).isOk = true) (n : Nat) :
    let st := runOps env (DState.init hosts) (List.replicate n (.send m r .plain))
    st.hosts = hosts ∧ (outIds (circuitHistory (hosts r).addr st.trace)).length = n := by
  have hi := reachable_inv env hosts (List.replicate n (.send m r .plain))
  have key : ∀ n (st : DState), st.hosts = hosts →
      (runOps env st (List.replicate n (.send m r .plain))).hosts = hosts ∧
      (findCircuit (runOps env st (List.replicate n (.send m r .plain))) r).2.lastOut = (findCircuit st r).2.lastOut + n := by
    intro n
    induction n with
    | zero => intro st h; exact ⟨h, rfl⟩
    | succ n ih =>
      intro st h
      have e : step env st (.send m r .plain) = (transmit env st m r .plain).2 := by
        show (send env st m r .plain).2 = _
        rw [send_default hb hd, h, hok]
        rfl
      have hh : (transmit env st m r .plain).2.hosts = hosts := by rw [← h]; exact (transmit_keeps _ _ _ _ _).hosts
      obtain ⟨h1, h2⟩ := ih (transmit env st m r .plain).2 hh
      have e2 : runOps env st (List.replicate (n + 1) (.send m r .plain)) =
          runOps env (transmit env st m r .plain).2 (List.replicate n (.send m r .plain)) := by
        rw [List.replicate_succ, ← e]; rfl
      rw [e2]
      refine ⟨h1, ?_⟩
      rw [h2]
      have h3 : (findCircuit (transmit env st m r .plain).2 r).2.lastOut = (findCircuit st r).2.lastOut + 1 := by
        rw [(findCircuit_fields _ r).2.2.2.2.2.2.2, (findCircuit_fields st r).2.2.2.2.2.2.2, transmit_get?, hh, h, if_pos rfl]
        simp only [Option.getD_some, prepare_lastOut]
      omega
  obtain ⟨h1, h2⟩ := key n (DState.init hosts) rfl
  refine ⟨h1, ?_⟩
  have h3 := find_lastOut hi r
  rw [h1] at h3
  rw [← h3, h2]
  show (findCircuit (DState.init hosts) r).2.lastOut + n = n
  rw [(findCircuit_fields _ r).2.2.2.2.2.2.2]
  simp [DState.init, Dict.get?]

/-- **C98.** Any number of packets can be prepared for an address that is not bad, so the hypotheses of `C98_silent` and `C98_send_fails` can be met. -/
theorem C98_reachable (n : Nat) : ∃ env : DEnv, env.ser.rt.ver = .v27 ∧ env.handleOutgoing = false ∧ 0 < env.depth ∧ ∃ hosts ops r,
    let st := runOps env (DState.init hosts) ops
    n ≤ (outIds (circuitHistory (st.hosts r).addr st.trace)).length := by
  refine ⟨{ dispEnv with ser := { dispEnv.ser with rt := ⟨.v27, fun _ _ _ => 0⟩ } }, rfl, rfl, by decide, dispHosts,
    List.replicate n (.send demoMessage 0 .plain), 0, ?_⟩
  have h := prepared_any { dispEnv with ser := { dispEnv.ser with rt := ⟨.v27, fun _ _ _ => 0⟩ } } dispHosts rfl (by decide) demoMessage 0
    (by decide) n
  simp only at h ⊢
  rw [h.1, h.2]
  exact Nat.le_refl n

/-- A packet with id `2^31` is refused by Python 2.7 and sent by Python 2.6; with id `2^32 + 5` it looks like packet 5. -/
example : serialize ⟨⟨.v27, fun _ _ _ => 0⟩, dispDict, []⟩ { demoMessage with packetId := 2 ^ 31 } = .error .structError ∧
    ((serialize ⟨⟨.v26, fun _ _ _ => 0⟩, dispDict, []⟩ { demoMessage with packetId := 2 ^ 31 }).map (·.map (slice · 1 5))) = .ok (some [128, 0, 0, 0]) ∧
    ((serialize ⟨⟨.v26, fun _ _ _ => 0⟩, dispDict, []⟩ { demoMessage with packetId := 2 ^ 32 + 5 }).map (·.map (slice · 1 5))) = .ok (some [0, 0, 0, 5]) := by
  decide +kernel

end Pyogp
