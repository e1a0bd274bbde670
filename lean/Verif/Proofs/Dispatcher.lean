import Verif.Proofs.Circuit
import Verif.Proofs.Util
import Verif.Proofs.Parse

namespace Pyogp
open Spec

/-! ## What is preserved by everything a dispatcher does -/

/-- Some host object was mutated. -/
def DState.setHost (st : DState) (r : HostRef) (v : Host) : DState :=
  { st with hosts := fun x => if x = r then v else st.hosts x }

/-- All host mutations of a program are allowed ones. -/
def Prog.Mutates (ok : HostRef → Host → Prop) : Prog → Prop
  | .done => True
  | .raise _ => True
  | .send _ _ _ k => ∀ x, (k x).Mutates ok
  | .setHost r v k => ok r v ∧ k.Mutates ok

theorem Prog.mutates_any : ∀ p : Prog, p.Mutates (fun _ _ => True)
  | .done => trivial
  | .raise _ => trivial
  | .send _ _ _ k => fun x => Prog.mutates_any (k x)
  | .setHost _ _ k => ⟨trivial, Prog.mutates_any k⟩

/-- A property of dispatcher states preserved by the primitive parts of sending, as long as host objects are only mutated
as allowed. -/
structure SendClosed (env : DEnv) (ok : HostRef → Host → Prop) (P : DState → Prop) : Prop where
  hosts : ∀ st r v, ok r v → P st → P (st.setHost r v)
  outgoing : ∀ st m, P st → P (st.log (.outgoing m))
  transmit : ∀ st m r mode, P st → P (transmit env st m r mode).2

theorem Prog.run_preserves {P : DState → Prop} {ok : HostRef → Host → Prop}
    {send : DState → Message → HostRef → SendMode → Py (Option Bytes) × DState}
    (hh : ∀ st r v, ok r v → P st → P (st.setHost r v)) (hs : ∀ st m r mode, P st → P (send st m r mode).2) :
    ∀ (p : Prog) (st : DState), p.Mutates ok → P st → P (p.run send st).2
  | .done, st, _, h => h
  | .raise e, st, _, h => h
  | .send m r mode k, st, hm, h => by
    rw [Prog.run]
    exact Prog.run_preserves hh hs (k _) _ (hm _) (hs st m r mode h)
  | .setHost r v k, st, hm, h => by
    rw [Prog.run]
    exact Prog.run_preserves hh hs k _ hm.2 (hh _ _ _ hm.1 h)

/-- The subscribers only mutate hosts as allowed. -/
def HandlerOk (env : DEnv) (ok : HostRef → Host → Prop) : Prop := ∀ tr m, (env.handler tr m).Mutates ok

theorem sendWith_preserves {env : DEnv} {ok : HostRef → Host → Prop} {P : DState → Prop} (hc : SendClosed env ok P) (hm : HandlerOk env ok) :
    ∀ (n : Nat) (st : DState) (m : Message) (r : HostRef) (mode : SendMode), P st → P (sendWith env n st m r mode).2
  | 0, st, m, r, mode, h => h
  | n + 1, st, m, r, mode, h => by
    unfold sendWith
    split
    · exact h
    · split
      · simp only
        have hrun := Prog.run_preserves hc.hosts (sendWith_preserves hc hm n) (env.handler (st.log (.outgoing m)).trace m)
          (st.log (.outgoing m)) (hm _ _) (hc.outgoing st m h)
        split
        · rename_i he; rw [he] at hrun; exact hrun
        · rename_i st' he
          rw [he] at hrun
          exact hc.transmit _ m r mode hrun
      · exact hc.transmit st m r mode h

theorem send_preserves {env : DEnv} {ok : HostRef → Host → Prop} {P : DState → Prop} (hc : SendClosed env ok P) (hm : HandlerOk env ok)
    (st : DState) (m : Message) (r : HostRef)
    (mode : SendMode) (h : P st) : P (send env st m r mode).2 := sendWith_preserves hc hm _ st m r mode h

theorem handler_preserves {env : DEnv} {ok : HostRef → Host → Prop} {P : DState → Prop} (hc : SendClosed env ok P) (hm : HandlerOk env ok)
    (tr : List Ev) (m : Message) (n : Nat) (st : DState) (h : P st) :
    P ((env.handler tr m).run (sendWith env n) st).2 :=
  Prog.run_preserves hc.hosts (sendWith_preserves hc hm n) _ st (hm _ _) h

theorem ackLoop_preserves {env : DEnv} {ok : HostRef → Host → Prop} {P : DState → Prop} (hc : SendClosed env ok P) (hm : HandlerOk env ok) (r : HostRef) :
    ∀ (ids : List Nat) (n : Nat) (msg : Message) (st : DState), P st → P (ackLoop env r ids n msg st).2
  | [], n, msg, st, h => h
  | pid :: ids, n, msg, st, h => by
    unfold ackLoop
    simp only
    split
    · have := send_preserves hc hm st (addAckBlock (if n = 0 then Message.new "PacketAck" [] else msg) pid) r .plain h
      split
      · rename_i he; rw [he] at this; exact this
      · rename_i he; rw [he] at this; exact ackLoop_preserves hc hm r ids _ _ _ this
    · exact ackLoop_preserves hc hm r ids _ _ _ h

/-- A property of dispatcher states preserved by the primitive parts of sending acknowledgements. -/
structure AckClosed (env : DEnv) (ok : HostRef → Host → Prop) (P : DState → Prop) : Prop extends SendClosed env ok P where
  cleared : ∀ st a c, P st → st.circuits.get? a = some c → P (st.setCircuit a { c with acks := [] })

/-- A property of dispatcher states preserved by the primitive parts of receiving. -/
structure RecvClosed (env : DEnv) (ok : HostRef → Host → Prop) (P : DState → Prop) : Prop extends SendClosed env ok P where
  received : ∀ st r dg, P st →
    P { ({ (findCircuit st r).1 with packetsIn := (findCircuit st r).1.packetsIn + 1 } : DState).log (.received (st.hosts r).addr dg) with
        deser := (deserialize (env.deser (findCircuit st r).1.trace) (findCircuit st r).1.deser dg).2 }
  collect : ∀ st a c pid, P st → st.circuits.get? a = some c → pid < 2 ^ 32 → P (st.setCircuit a (c.collectAck pid))
  parsed : ∀ st a c m, P st → st.circuits.get? a = some c → m.packetId < 2 ^ 32 → P ((st.setCircuit a (c.handlePacket m)).log (.parsed a m))
  delivered : ∀ st m, P st → P (st.log (.delivered m))

/-- A property of dispatcher states preserved by the primitive parts of all operations. -/
structure Closed (env : DEnv) (ok : HostRef → Host → Prop) (P : DState → Prop) : Prop extends RecvClosed env ok P, AckClosed env ok P where
  remove : ∀ st r, P st →
    P (({ st with circuits := removeCircuitData st.circuits (st.hosts r) }).log (.removed (st.hosts r).addr))
  trust : ∀ st a c b, P st → st.circuits.get? a = some c → P (st.setCircuit a { c with trusted := b })

theorem findCircuit_get? (st : DState) (r : HostRef) :
    (findCircuit st r).1.circuits.get? (st.hosts r).addr = some (findCircuit st r).2 := by
  unfold findCircuit getCircuit addCircuit
  cases h : st.circuits.get? (st.hosts r).addr with
  | some c => exact h
  | none => simp only [Dict.get?_set_self]

theorem findCircuit_fields (st : DState) (r : HostRef) :
    (findCircuit st r).1.hosts = st.hosts ∧ (findCircuit st r).1.trace = st.trace ∧
    (findCircuit st r).1.packetsIn = st.packetsIn ∧ (findCircuit st r).1.packetsOut = st.packetsOut ∧
    (findCircuit st r).1.unackedCircuits = st.unackedCircuits ∧ (findCircuit st r).1.deser = st.deser ∧
    (∀ a, (findCircuit st r).1.circuits.get? a =
      if (st.hosts r).addr = a ∧ st.circuits.get? a = none then some (findCircuit st r).2 else st.circuits.get? a) ∧
    (findCircuit st r).2 = (st.circuits.get? (st.hosts r).addr).getD { host := r } := by
  unfold findCircuit getCircuit addCircuit
  cases h : st.circuits.get? (st.hosts r).addr with
  | some c =>
    refine ⟨rfl, rfl, rfl, rfl, rfl, rfl, ?_, rfl⟩
    intro a
    rw [if_neg]
    rintro ⟨h1, h2⟩
    rw [h1, h2] at h; cases h
  | none =>
    refine ⟨rfl, rfl, rfl, rfl, rfl, rfl, ?_, rfl⟩
    intro a
    simp only [Dict.get?_set]
    by_cases ha : (st.hosts r).addr = a
    · subst ha; simp [h]
    · simp [ha]

theorem unpackU32_lt {rt : Runtime} {d : Bytes} {off : Nat} {e : Option Endian} {p : Int}
    (h : unpackInt rt d .u32 off e = .ok p) : p.toNat < 2 ^ 32 := by
  simp only [unpackInt, unpackData, unpackerTable, Codec.unpack] at h
  cases hn : structUnpack (e.getD .little) .I (selectBytes d .u32 (some off) none) with
  | error x => rw [hn] at h; cases x <;> cases h
  | ok n =>
    rw [hn] at h
    cases h
    unfold structUnpack at hn
    split at hn
    · rename_i hl
      simp only [IntFmt.signed, Bool.false_eq_true, false_and, if_false, Except.ok.injEq] at hn
      subst hn
      have := leVal_lt ((e.getD .little).order (selectBytes d .u32 (some off) none))
      have h2 : ((e.getD .little).order (selectBytes d .u32 (some off) none)).length = 4 := by
        cases e.getD Endian.little <;> simpa [Endian.order, IntFmt.size] using hl
      rw [h2] at this
      rw [Int.toNat_natCast]
      exact Nat.lt_of_lt_of_eq this (by decide)
    · cases hn

theorem deserialize_id_lt {env : DeserEnv} {st : DeserState} {dg : Bytes} {m : Message}
    (h : (deserialize env st dg).1 = .ok (some m)) : m.packetId < 2 ^ 32 := by
  obtain ⟨_, _, _, t, _, _, _, _, _, _, hd⟩ := deserialize_inv h
  simp only [decodeData, ok_bind, bind_ok, liftPy_ok] at hd
  obtain ⟨flags, _, pid, hpid, m₁, hap, off, _, ⟨bl, pos'⟩, _, h⟩ := hd
  have h1 : m₁.packetId = pid.toNat := by
    unfold decodeAckPart at hap
    split at hap
    · simp only [bind_ok] at hap
      obtain ⟨n, _, hap⟩ := hap
      obtain ⟨ids, post, _, _, _, rfl⟩ := decodeAcks_inv hap
      rfl
    · cases hap; rfl
  have h2 := unpackU32_lt hpid
  split at h
  · cases h
  · cases h
    simp only
    split
    · simp only; rw [h1]; exact h2
    · rw [h1]; exact h2

theorem receiveCheck_preserves {env : DEnv} {ok : HostRef → Host → Prop} {P : DState → Prop} (hc : RecvClosed env ok P) (hm : HandlerOk env ok) (st : DState) (r : HostRef) (dg : Bytes)
    (h : P st) : P (receiveCheck env st r dg).2 := by
  unfold receiveCheck
  split
  · have h1 := hc.received st r dg h
    have hg := findCircuit_get? st r
    simp only
    generalize hst1 : ({ ({ (findCircuit st r).1 with packetsIn := (findCircuit st r).1.packetsIn + 1 } : DState).log (.received (st.hosts r).addr dg) with
        deser := (deserialize (env.deser (findCircuit st r).1.trace) (findCircuit st r).1.deser dg).2 } : DState) = st1 at *
    have hg1 : st1.circuits.get? (st.hosts r).addr = some (findCircuit st r).2 := by rw [← hst1]; exact hg
    split
    · exact h1
    · split
      · exact h1
      · rename_i hpid; exact hc.collect _ _ _ _ h1 hg1 (unpackU32_lt hpid)
    · rename_i m hde
      have hid := deserialize_id_lt hde
      split
      · exact h1
      · split
        · have h2 := hc.delivered _ m (hc.parsed _ _ _ m h1 hg1 hid)
          have h3 := handler_preserves hc.toSendClosed hm (((st1.setCircuit (st.hosts r).addr
            ((findCircuit st r).2.handlePacket m)).log (.parsed (st.hosts r).addr m)).log (.delivered m)).trace m env.depth _ h2
          split
          · rename_i he; rw [he] at h3; exact h3
          · rename_i he; rw [he] at h3; exact h3
        · exact hc.parsed _ _ _ _ h1 hg1 hid
  · exact h

theorem ackCircuit_preserves {env : DEnv} {ok : HostRef → Host → Prop} {P : DState → Prop} (hc : AckClosed env ok P) (hm : HandlerOk env ok) (st : DState) (a : Addr) (h : P st) :
    P (ackCircuit env st a).2 := by
  unfold ackCircuit
  split
  · exact h
  · rename_i c _
    have h1 := ackLoop_preserves hc.toSendClosed hm c.host c.acks 0 (Message.new "PacketAck" []) st h
    split
    · rename_i he; rw [he] at h1; exact h1
    · rename_i n msg st' he
      rw [he] at h1
      simp only
      have h2 : P (if 0 < n then send env st' msg c.host .plain else (Except.ok none, st')).2 := by
        split
        · exact send_preserves hc.toSendClosed hm _ _ _ _ h1
        · exact h1
      split
      · rename_i he; rw [he] at h2; exact h2
      · rename_i he
        rw [he] at h2
        split
        · exact h2
        · rename_i hg; exact hc.cleared _ _ _ h2 hg

theorem sendAcks_preserves {env : DEnv} {ok : HostRef → Host → Prop} {P : DState → Prop} (hc : AckClosed env ok P) (hm : HandlerOk env ok) :
    ∀ (as : List Addr) (st : DState), P st → P (sendAcks env as st).2
  | [], st, h => h
  | a :: as, st, h => by
    unfold sendAcks
    have := ackCircuit_preserves hc hm st a h
    split
    · rename_i he; rw [he] at this; exact this
    · rename_i he; rw [he] at this; exact sendAcks_preserves hc hm as _ this

theorem processAcks_preserves {env : DEnv} {ok : HostRef → Host → Prop} {P : DState → Prop} (hc : AckClosed env ok P) (hm : HandlerOk env ok) (st : DState) (order : List Addr) (h : P st) :
    P (processAcks env st order).2 := by
  unfold processAcks
  split
  · exact h
  · exact sendAcks_preserves hc hm _ _ h

theorem step_preserves {env : DEnv} {ok : HostRef → Host → Prop} {P : DState → Prop} (hc : Closed env ok P) (hm : HandlerOk env ok)
    (st : DState) (op : Op) (hop : ∀ r v, op = .setHost r v → ok r v) (h : P st) : P (step env st op) := by
  cases op with
  | send m r mode => exact send_preserves hc.toSendClosed hm st m r mode h
  | recv r dg => exact receiveCheck_preserves hc.toRecvClosed hm st r dg h
  | processAcks order => exact processAcks_preserves hc.toAckClosed hm st order h
  | setHost r v => exact hc.hosts _ _ _ (hop r v rfl) h
  | removeCircuit r => exact hc.remove _ _ h
  | setTrusted a b =>
    simp only [step]
    split
    · exact h
    · rename_i hg; exact hc.trust _ _ _ _ h hg

theorem runOps_preserves {env : DEnv} {ok : HostRef → Host → Prop} {P : DState → Prop} (hc : Closed env ok P) (hm : HandlerOk env ok) :
    ∀ (ops : List Op) (_ : ∀ op ∈ ops, ∀ r v, op = .setHost r v → ok r v) (st : DState), P st → P (runOps env st ops)
  | [], _, _, h => h
  | op :: ops, ho, st, h => runOps_preserves hc hm ops (fun o ho' => ho o (List.mem_cons_of_mem _ ho')) _
      (step_preserves hc hm st op (ho op List.mem_cons_self) h)

/-! ## What sending one packet does -/

/-- The state after preparing the packet, before the socket. -/
def preparedState (st : DState) (m : Message) (r : HostRef) (mode : SendMode) : DState :=
  let a := (st.hosts r).addr
  let c := (mode.prepare (findCircuit st r).2 m).1
  let st1 := (((findCircuit st r).1).setCircuit a c).log (.prepared a (mode.prepare (findCircuit st r).2 m).2)
  match mode with
    | .reliable _ => if c.unackCount ≤ 0 then { st1 with unackedCircuits := st1.unackedCircuits.set r a } else st1
    | _ => st1

theorem transmit_eq (env : DEnv) (st : DState) (m : Message) (r : HostRef) (mode : SendMode) :
    transmit env st m r mode =
      handToSocket env (preparedState st m r mode) (st.hosts r).addr (mode.prepare (findCircuit st r).2 m).2 := rfl

theorem handToSocket_cases (env : DEnv) (st : DState) (a : Addr) (m : Message) :
    (handToSocket env st a m = (sendFailed m, st)) ∨
    (∃ dg, serialize env.ser m = .ok (some dg) ∧ env.net st.trace a dg = true ∧
      handToSocket env st a m = (.ok (some dg), { (st.log (.sent a dg)) with packetsOut := st.packetsOut + 1 })) := by
  unfold handToSocket
  split
  · exact .inl rfl
  · exact .inl rfl
  · rename_i dg hs
    split
    · rename_i hn; exact .inr ⟨dg, hs, hn, rfl⟩
    · exact .inl rfl

theorem sendFailed_ne (m : Message) (dg : Bytes) : sendFailed m ≠ .ok (some dg) := by
  unfold sendFailed; cases m.render <;> intro h <;> cases h

theorem sendFailed_ok {m : Message} {o : Option Bytes} (h : sendFailed m = .ok o) : o = none := by
  cases o with
  | none => rfl
  | some dg => exact absurd h (sendFailed_ne m dg)

theorem preparedState_fields (st : DState) (m : Message) (r : HostRef) (mode : SendMode) :
    (preparedState st m r mode).hosts = st.hosts ∧
    (preparedState st m r mode).trace = st.trace ++ [.prepared (st.hosts r).addr (mode.prepare (findCircuit st r).2 m).2] ∧
    (preparedState st m r mode).packetsIn = st.packetsIn ∧ (preparedState st m r mode).packetsOut = st.packetsOut ∧
    (preparedState st m r mode).deser = st.deser ∧
    (preparedState st m r mode).circuits = (findCircuit st r).1.circuits.set (st.hosts r).addr (mode.prepare (findCircuit st r).2 m).1 := by
  have := findCircuit_fields st r
  unfold preparedState
  simp only
  split
  · split <;> simp [DState.log, DState.setCircuit, this]
  · simp [DState.log, DState.setCircuit, this]

end Pyogp
