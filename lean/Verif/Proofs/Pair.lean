import Verif.Spec.Pair
import Verif.Proofs.Coroutines
import Verif.Proofs.System

/-!
# Proofs: programs that send through the queue
-/

namespace Pyogp
open Spec

/-! ## Acknowledging, whatever the hosts are -/

/-- A packet that acknowledges some of `ids`. -/
def AckPacket (ids : List Nat) (m : Message) : Prop :=
  m.sendFlags = 0 ∧ ∃ l, l ≠ [] ∧ l.length ≤ 251 ∧ (∀ i ∈ l, i ∈ ids) ∧ IsAckFor m l

theorem AckPacket.mono {ids ids' : List Nat} (h : ∀ i ∈ ids, i ∈ ids') {m : Message} : AckPacket ids m → AckPacket ids' m := by
  rintro ⟨h1, l, h2, h3, h4, h5⟩
  exact ⟨h1, l, h2, h3, fun i hi => h i (h4 i hi), h5⟩

theorem ack_prepared (c : Circuit) (m : Message) (ids : List Nat) (h : IsAckFor m ids) :
    ((SendMode.plain).prepare c m).2.sendFlags = 0 ∧ IsAckFor ((SendMode.plain).prepare c m).2 ids := by
  rw [prepare_eq]
  simp only
  refine ⟨?_, by unfold IsAckFor; rw [preparedMsg_name, preparedMsg_blocks]; exact h⟩
  unfold preparedMsg
  rw [if_neg (by simp [h.1])]
  rfl

theorem transmit_prepared (env : DEnv) (st : DState) (m : Message) (r : HostRef) (mode : SendMode) :
    ∃ new, (transmit env st m r mode).2.trace = st.trace ++ new ∧
      preparedMsgs new = [((st.hosts r).addr, (mode.prepare (findCircuit st r).2 m).2)] := by
  obtain ⟨_, _, post, h3, h4⟩ := transmit_circ env st m r mode
  refine ⟨_, h3, ?_⟩
  have := preparedMsgs_append [.prepared (st.hosts r).addr (mode.prepare (findCircuit st r).2 m).2] post
  rw [h4] at this
  exact this

/-- The result of sending one acknowledgement message. -/
theorem send_ack {env : DEnv} (hb : env.handleOutgoing = false) (hd : 0 < env.depth) (st : DState) (m : Message) (r : HostRef) (l ids : List Nat)
    (hm : IsAckFor m l) (hne : l ≠ []) (hlen : l.length ≤ 251) (hsub : ∀ i ∈ l, i ∈ ids) :
    ∃ o st' new, send env st m r .plain = (.ok o, st') ∧ Keeps st.hosts st st' ∧ st'.trace = st.trace ++ new ∧
      ∀ x ∈ preparedMsgs new, AckPacket ids x.2 := by
  rw [send_default hb hd]
  split
  · obtain ⟨o, ho⟩ := transmit_total env st m r .plain (IsAckFor.render hm)
    obtain ⟨new, h1, h2⟩ := transmit_prepared env st m r .plain
    refine ⟨o, _, new, Prod.ext ho rfl, transmit_keeps _ _ _ _ _, h1, ?_⟩
    rw [h2]
    intro x hx
    rw [List.mem_singleton] at hx
    subst hx
    obtain ⟨h3, h4⟩ := ack_prepared (findCircuit st r).2 m l hm
    exact ⟨h3, l, hne, hlen, hsub, h4⟩
  · exact ⟨_, _, [], rfl, Keeps.refl rfl, by simp, by simp [preparedMsgs]⟩

theorem ackLoop_all {env : DEnv} (hb : env.handleOutgoing = false) (hd : 0 < env.depth) (r : HostRef) (all : List Nat) : ∀ (ids acc : List Nat) (msg : Message)
    (st : DState), acc.length < 251 → (acc ≠ [] → IsAckFor msg acc) → (∀ i ∈ acc ++ ids, i ∈ all) →
    ∃ rest msg' st' new, ackLoop env r ids acc.length msg st = (.ok (rest.length, msg'), st') ∧ Keeps st.hosts st st' ∧ st'.trace = st.trace ++ new ∧
      (∀ x ∈ preparedMsgs new, AckPacket all x.2) ∧ rest.length < 251 ∧ (rest ≠ [] → IsAckFor msg' rest) ∧ ∀ i ∈ rest, i ∈ all
  | [], acc, msg, st, hl, hm, hs =>
    ⟨acc, msg, st, [], rfl, Keeps.refl rfl, by simp, by simp [preparedMsgs], hl, hm, by simpa using hs⟩
  | pid :: ids, acc, msg, st, hl, hm, hs => by
    have hmsg : IsAckFor (addAckBlock (if acc.length = 0 then Message.new "PacketAck" [] else msg) pid) (acc ++ [pid]) := by
      apply packetAck_add
      cases acc with
      | nil => exact .inr ⟨rfl, rfl⟩
      | cons x xs => exact .inl (hm (by simp))
    unfold ackLoop
    simp only
    generalize addAckBlock (if acc.length = 0 then Message.new "PacketAck" [] else msg) pid = msg1 at hmsg
    split
    · obtain ⟨o, st1, new1, h1, h2, h3, h4⟩ := send_ack hb hd st msg1 r (acc ++ [pid]) all hmsg (by simp) (by simp; omega)
        (fun i hi => hs i (by
          rcases List.mem_append.mp hi with h | h
          · exact List.mem_append_left _ h
          · rw [List.mem_singleton] at h; subst h; simp))
      rw [h1]
      obtain ⟨rest, msg', st', new, g1, g2, g3, g4, g5, g6, g7⟩ := ackLoop_all hb hd r all ids [] msg1 st1 (by simp) (by simp)
        (fun i hi => hs i (by simp only [List.nil_append] at hi; simp [hi]))
      rw [h2.hosts] at g2
      refine ⟨rest, msg', st', new1 ++ new, g1, h2.trans g2, by rw [g3, h3, List.append_assoc], ?_, g5, g6, g7⟩
      rw [preparedMsgs_append]
      intro x hx
      rcases List.mem_append.mp hx with hx | hx
      · exact h4 x hx
      · exact g4 x hx
    · rename_i hgt
      have hlen : (acc ++ [pid]).length = acc.length + 1 := by simp
      rw [← hlen]
      exact ackLoop_all hb hd r all ids (acc ++ [pid]) msg1 st (by simp; omega) (fun _ => hmsg) (by simpa using hs)

theorem ackCircuit_all {env : DEnv} (hb : env.handleOutgoing = false) (hd : 0 < env.depth) (st : DState) (a : Addr) :
    ∃ st' new, ackCircuit env st a = (.ok (), st') ∧ st'.hosts = st.hosts ∧ st'.trace = st.trace ++ new ∧
      (∀ x ∈ preparedMsgs new, AckPacket (pending st a) x.2) ∧ ∀ b, pending st' b = if b = a then [] else pending st b := by
  unfold ackCircuit
  cases hc : st.circuits.get? a with
  | none =>
    refine ⟨_, [], rfl, rfl, by simp, by simp [preparedMsgs], ?_⟩
    intro b
    split
    · rename_i h; subst h; unfold pending; rw [hc]
    · rfl
  | some c =>
    have hp : pending st a = c.acks := by unfold pending; rw [hc]
    rw [hp]
    obtain ⟨rest, msg, st1, new1, h1, h2, h3, h4, h5, h6, h7⟩ := ackLoop_all hb hd c.host c.acks c.acks [] (Message.new "PacketAck" []) st (by simp)
      (by simp) (fun i hi => hi)
    simp only [List.length_nil] at h1
    simp only [h1]
    have : ∃ o st2 new2, (if 0 < rest.length then send env st1 msg c.host .plain else (.ok none, st1)) = (Except.ok o, st2) ∧ Keeps st1.hosts st1 st2 ∧
        st2.trace = st1.trace ++ new2 ∧ ∀ x ∈ preparedMsgs new2, AckPacket c.acks x.2 := by
      split
      · rename_i hn
        have hne : rest ≠ [] := List.length_pos_iff.mp hn
        exact send_ack hb hd st1 msg c.host rest c.acks (h6 hne) hne (by omega) h7
      · exact ⟨_, _, [], rfl, Keeps.refl rfl, by simp, by simp [preparedMsgs]⟩
    obtain ⟨o, st2, new2, g1, g2, g3, g4⟩ := this
    simp only [g1]
    rw [h2.hosts] at g2
    have hk := h2.trans g2
    obtain ⟨c2, hc2, _⟩ := hk.circ a c hc
    rw [hc2]
    refine ⟨_, new1 ++ new2, rfl, hk.hosts, ?_, ?_, ?_⟩
    · simp only [DState.setCircuit]; rw [g3, h3, List.append_assoc]
    · rw [preparedMsgs_append]
      intro x hx
      rcases List.mem_append.mp hx with hx | hx
      · exact h4 x hx
      · exact g4 x hx
    · intro b
      rw [pending_setCircuit, hk.pend]
      simp only [eq_comm]

theorem sendAcks_all {env : DEnv} (hb : env.handleOutgoing = false) (hd : 0 < env.depth) (P : Nat → Prop) : ∀ (order : List Addr) (st : DState),
    (∀ a, ∀ i ∈ pending st a, P i) →
    ∃ st' new, sendAcks env order st = (.ok (), st') ∧ st'.hosts = st.hosts ∧ st'.trace = st.trace ++ new ∧
      (∀ x ∈ preparedMsgs new, ∃ ids, (∀ i ∈ ids, P i) ∧ AckPacket ids x.2) ∧ ∀ b, pending st' b = if b ∈ order then [] else pending st b
  | [], st, _ => ⟨st, [], rfl, rfl, by simp, by simp [preparedMsgs], by simp⟩
  | a :: as, st, hP => by
    obtain ⟨st1, new1, h1, h2, h3, h4, h5⟩ := ackCircuit_all hb hd st a
    obtain ⟨st', new, g1, g2, g3, g4, g5⟩ := sendAcks_all hb hd P as st1 (by
      intro b i hi
      rw [h5] at hi
      split at hi
      · cases hi
      · exact hP b i hi)
    unfold sendAcks
    rw [h1]
    refine ⟨st', new1 ++ new, g1, g2.trans h2, by rw [g3, h3, List.append_assoc], ?_, ?_⟩
    · rw [preparedMsgs_append]
      intro x hx
      rcases List.mem_append.mp hx with hx | hx
      · exact ⟨_, hP a, h4 x hx⟩
      · exact g4 x hx
    · intro b
      rw [g5, h5]
      by_cases h1 : b ∈ as <;> by_cases h2 : b = a <;> simp [h1, h2]

theorem pending_not_key {st : DState} {a : Addr} (h : a ∉ st.circuits.keys) : pending st a = [] := by
  unfold pending
  rw [(Dict.get?_eq_none_iff _ _).mpr h]

theorem mem_values_of_get? {κ α : Type} [DecidableEq κ] : ∀ {d : Dict κ α} {k : κ} {v : α}, d.get? k = some v → v ∈ d.values
  | [], _, _, h => by simp [Dict.get?] at h
  | (k', v') :: d, k, v, h => by
    by_cases hk : k' = k
    · subst hk
      simp [Dict.get?] at h
      subst h
      simp [Dict.values]
    · have h' : Dict.get? d k = some v := by simpa [Dict.get?, hk] using h
      have := mem_values_of_get? h'
      simp only [Dict.values, List.map_cons, List.mem_cons]
      exact .inr this

theorem ackRound_all {env : MEnv} (hb : env.disp.handleOutgoing = false) (hd : 0 < env.disp.depth) {d : DState} (hr : Reach env.disp d)
    {order : List Addr} (ho : order.Perm d.circuits.keys) :
    ∃ d' new, ackRound env d order = (.ok (), d') ∧ d'.hosts = d.hosts ∧ d'.trace = d.trace ++ new ∧
      (∀ x ∈ preparedMsgs new, ∃ ids, (∀ i ∈ ids, i < 2 ^ 32) ∧ AckPacket ids x.2) ∧ ∀ a, pending d' a = [] := by
  have hok : resendAll d = .ok () := by
    obtain ⟨hosts, ops, rfl⟩ := hr
    unfold resendAll; rw [(reachable_inv env.disp hosts ops).noRetry]; rfl
  have hids : ∀ a, ∀ i ∈ pending d a, i < 2 ^ 32 := by
    obtain ⟨hosts, ops, rfl⟩ := hr
    intro a i hi
    unfold pending at hi
    split at hi
    · rename_i c hc; exact (reachable_sent env.disp hosts ops).acks a c hc i hi
    · cases hi
  unfold ackRound
  split
  · unfold processAcks
    rw [hok]
    obtain ⟨d', new, h1, h2, h3, h4, h5⟩ := sendAcks_all hb hd (· < 2 ^ 32) order d hids
    refine ⟨d', new, h1, h2, h3, h4, ?_⟩
    intro a
    rw [h5]
    split
    · rfl
    · rename_i ha
      exact pending_not_key (fun h => ha (ho.mem_iff.mpr h))
  · rename_i hu
    refine ⟨d, [], rfl, rfl, by simp, by simp [preparedMsgs], ?_⟩
    intro a
    unfold pending
    cases hc : d.circuits.get? a with
    | none => rfl
    | some c =>
      simp only
      unfold hasUnacked at hu
      rw [Bool.not_eq_true, List.any_eq_false] at hu
      have := hu c (mem_values_of_get? hc)
      exact List.eq_nil_of_length_eq_zero (by simpa using this)

/-! ## Receiving, with subscribers that only look -/

theorem looksOnly_run {send : DState → Message → HostRef → SendMode → Py (Option Bytes) × DState} {p : Prog} (h : LooksOnly p) (st : DState) :
    (p.run send st).2 = st := by
  cases p <;> first | rfl | exact h.elim

theorem receive_looks {env : DEnv} (hh : ∀ tr m, LooksOnly (env.handler tr m)) (st : DState) (r : HostRef) (dg : Bytes) :
    (receiveCheck env st r dg).2.hosts = st.hosts ∧ preparedMsgs (receiveCheck env st r dg).2.trace = preparedMsgs st.trace := by
  obtain ⟨h1, h2, _⟩ := findCircuit_fields st r
  have hp : ∀ (tr : List Ev) (e : Ev), preparedMsgs [e] = [] → preparedMsgs (tr ++ [e]) = preparedMsgs tr := by
    intro tr e he; rw [preparedMsgs_append, he, List.append_nil]
  unfold receiveCheck
  split
  · simp only
    split
    · exact ⟨h1, by simp only [DState.log, h2]; rw [hp _ _ rfl]⟩
    · split
      · exact ⟨h1, by simp only [DState.log, h2]; rw [hp _ _ rfl]⟩
      · exact ⟨h1, by simp only [DState.log, DState.setCircuit, h2]; rw [hp _ _ rfl]⟩
    · split
      · exact ⟨h1, by simp only [DState.log, h2]; rw [hp _ _ rfl]⟩
      · split
        · generalize hst : DState.log _ (Ev.delivered _) = st2
          have h3 : st2.hosts = st.hosts ∧ preparedMsgs st2.trace = preparedMsgs st.trace := by
            rw [← hst]
            refine ⟨h1, ?_⟩
            simp only [DState.log, DState.setCircuit, h2]
            rw [hp _ _ rfl, hp _ _ rfl, hp _ _ rfl]
          rename_i m _ _ _
          have := looksOnly_run (send := sendWith env env.depth) (hh st2.trace m) st2
          split
          · rename_i he; rw [he] at this; simp only at this; rw [this]; exact h3
          · rename_i he; rw [he] at this; simp only at this; rw [this]; exact h3
        · refine ⟨h1, ?_⟩
          simp only [DState.log, DState.setCircuit, h2]
          rw [hp _ _ rfl, hp _ _ rfl]
  · exact ⟨rfl, rfl⟩

theorem receiveRound_looks {env : MEnv} (hh : ∀ tr m, LooksOnly (env.disp.handler tr m)) (d : DState) (i : Option Incoming) :
    (∀ r, r ≠ env.sender → (receiveRound env d i).2.hosts r = d.hosts r) ∧
      preparedMsgs (receiveRound env d i).2.trace = preparedMsgs d.trace := by
  cases i with
  | none =>
    obtain ⟨h1, h2⟩ := receive_looks hh d env.sender []
    exact ⟨fun r _ => by rw [receiveRound, h1], h2⟩
  | some i =>
    obtain ⟨h1, h2⟩ := receive_looks hh (netReceive d env.sender i.ip i.port) env.sender (i.dg.take recvBuffer)
    refine ⟨fun r hr => ?_, h2⟩
    rw [receiveRound, h1]
    simp only [netReceive, hr, if_false]

/-! ## The invariant -/

/-- What holds of a manager used through its queue. -/
structure Tidy (env : CEnv) (hosts : HostRef → Host) (w : World) : Prop where
  one : liveLoops w ≤ 1
  clean : .draining ∈ w.loops → ∀ a, pending w.m.disp a = []
  reach : ∃ ops, w.m.disp = runOps env.m.disp (DState.init hosts) ops
  host : ∀ r, r ≠ env.m.sender → w.m.disp.hosts r = hosts r
  flags : ∀ x ∈ preparedMsgs w.m.disp.trace, x.2.sendFlags &&& 0x10 = 0
  acks : ∀ x ∈ preparedMsgs w.m.disp.trace, x.2.name = "PacketAck" →
    (∃ ids, (∀ i ∈ ids, i < 2 ^ 32) ∧ AckPacket ids x.2) ∨ ∃ e ∈ w.m.calls, e.msg.name = "PacketAck"
  sent : (hosts env.m.host).isOk = true →
    ((preparedMsgs w.m.disp.trace).filter (fun x => x.2.name ≠ "PacketAck")).map visible =
      (w.m.calls.filter (fun e => e.msg.name ≠ "PacketAck")).map (wanted (hosts env.m.host).addr)

theorem Tidy.reach' {env : CEnv} {hosts : HostRef → Host} {w : World} (h : Tidy env hosts w) : Reach env.m.disp w.m.disp := by
  obtain ⟨ops, h⟩ := h.reach; exact ⟨hosts, ops, h⟩

/-- When one loop at most is alive, no other than that one is. -/
theorem others_dead {l : List UdpAt} (h : l.countP Alive ≤ 1) {i : Nat} {pc : UdpAt} (hi : l[i]? = some pc) (ha : Alive pc = true) {pc' x : UdpAt}
    (hx : x ∈ l.set i pc') : x = pc' ∨ Alive x = false := by
  have h1 := countP_set Alive l i pc .returned hi
  rw [ha] at h1
  simp only [if_true, Alive, Bool.false_eq_true, if_false] at h1
  have h0 : (l.set i .returned).countP Alive = 0 := by omega
  rw [List.countP_eq_zero] at h0
  obtain ⟨j, hj⟩ := List.mem_iff_getElem?.mp hx
  by_cases hij : i = j
  · subst hij
    left
    have hlt : i < l.length := (List.getElem?_eq_some_iff.mp hi).1
    rw [List.getElem?_set_self hlt] at hj
    exact (Option.some.inj hj).symm
  · right
    rw [List.getElem?_set_ne hij] at hj
    have : (l.set i .returned)[j]? = some x := by rw [List.getElem?_set_ne hij]; exact hj
    have := h0 x (List.mem_iff_getElem?.mpr ⟨j, this⟩)
    simpa using this

theorem Tidy.init (env : CEnv) (hosts : HostRef → Host) (hasEq : Bool) : Tidy env hosts (World.init hosts hasEq) := by
  refine ⟨by simp [liveLoops, World.init], by simp [World.init], ⟨[], rfl⟩, fun _ _ => rfl, ?_, ?_, ?_⟩
  · intro x hx; cases hx
  · intro x hx; cases hx
  · intro _; rfl

/-- Only what the invariant speaks about matters. -/
theorem Tidy.same {env : CEnv} {hosts : HostRef → Host} {w w' : World} (h : Tidy env hosts w) (hd : w'.m.disp = w.m.disp) (hc : w'.m.calls = w.m.calls)
    (h1 : liveLoops w' ≤ 1) (h2 : .draining ∈ w'.loops → .draining ∈ w.loops ∨ ∀ a, pending w.m.disp a = []) : Tidy env hosts w' := by
  refine ⟨h1, ?_, by rw [hd]; exact h.reach, by rw [hd]; exact h.host, by rw [hd]; exact h.flags, by rw [hd, hc]; exact h.acks, by rw [hd, hc]; exact h.sent⟩
  intro hdr
  rw [hd]
  rcases h2 hdr with h2 | h2
  · exact h.clean h2
  · exact h2

theorem live_le {l : List UdpAt} (h : l.countP Alive ≤ 1) {i : Nat} {pc : UdpAt} (hi : l[i]? = some pc) (ha : Alive pc = true) (pc' : UdpAt) :
    (l.set i pc').countP Alive ≤ 1 := by
  have h1 := countP_set Alive l i pc pc' hi
  rw [ha] at h1
  simp only [if_true] at h1
  split at h1 <;> omega

theorem set_clean {l : List UdpAt} (h : l.countP Alive ≤ 1) {i : Nat} {pc : UdpAt} (hi : l[i]? = some pc) (ha : Alive pc = true) {pc' : UdpAt}
    (hx : .draining ∈ l.set i pc') : pc' = .draining := by
  rcases others_dead h hi ha hx with h | h
  · exact h.symm
  · cases h

theorem reach_snoc {env : DEnv} {hosts : HostRef → Host} {d d' : DState} (h : ∃ ops, d = runOps env (DState.init hosts) ops) (ops' : List Op)
    (h' : d' = runOps env d ops') : ∃ ops, d' = runOps env (DState.init hosts) ops := by
  obtain ⟨ops, rfl⟩ := h
  exact ⟨ops ++ ops', by rw [h']; unfold runOps; rw [List.foldl_append]⟩

/-- What sending a queued message does when nothing is owed to anybody. -/
theorem sendUdp_tidy {env : CEnv} (hq : ThroughQueue env) (d : DState) (e : QEntry) (hp : ∀ a, pending d a = []) :
    ∃ new, (sendUdpMessage env.m d e).2.trace = d.trace ++ new ∧ Keeps d.hosts d (sendUdpMessage env.m d e).2 ∧
      (∀ x ∈ preparedMsgs new, x.2.sendFlags &&& 0x10 = 0 ∧ x.2.name = e.msg.name) ∧
      ((d.hosts env.m.host).isOk = true → (preparedMsgs new).map visible = [wanted (d.hosts env.m.host).addr e]) := by
  rw [sendUdp_mode, send_default hq.outgoing hq.depth]
  split
  · rename_i hok
    generalize hmode : (if e.reliable = true then SendMode.reliable 0 else SendMode.plain) = mode
    obtain ⟨new, h1, h2⟩ := transmit_prepared env.m.disp d e.msg env.m.host mode
    have hacks : (findCircuit d env.m.host).2.acks = [] := by
      rw [(findCircuit_fields d env.m.host).2.2.2.2.2.2.2]
      have := hp (d.hosts env.m.host).addr
      unfold pending at this
      cases hx : d.circuits.get? (d.hosts env.m.host).addr with
      | none => rfl
      | some c => rw [hx] at this; exact this
    have hflag : (preparedMsg (findCircuit d env.m.host).2 e.msg mode.flag mode.retries).sendFlags = mode.flag := by
      unfold preparedMsg
      rw [if_neg (by rw [hacks]; simp)]
    refine ⟨new, h1, transmit_keeps _ _ _ _ _, ?_, ?_⟩
    · rw [h2]
      intro x hx
      rw [List.mem_singleton] at hx
      subst hx
      rw [prepare_eq]
      simp only [preparedMsg_name, hflag, and_true]
      cases mode <;> simp [SendMode.flag]
    · intro _
      rw [h2, prepare_eq, List.map_singleton]
      simp only [visible, wanted, preparedMsg_name, preparedMsg_blocks, hflag]
      rw [← hmode]
      cases e.reliable <;> rfl
  · rename_i hok
    exact ⟨[], by simp, Keeps.refl rfl, by simp [preparedMsgs], fun h => absurd h hok⟩

theorem Tidy.udp {env : CEnv} (hq : ThroughQueue env) {hosts : HostRef → Host} {w : World} (h : Tidy env hosts w) (i : Nat) (input : Option Incoming)
    (order : List Addr) (ho : order.Perm w.m.disp.circuits.keys) : Tidy env hosts (act env w (.udp i input order)) := by
  simp only [act]
  split
  · exact h
  · rename_i pc hpc
    cases hal : Alive pc with
    | false =>
      have hself : w.loops.set i pc = w.loops := by
        apply List.ext_getElem?
        intro j
        rw [List.getElem?_set]
        split
        · rename_i hij; subst hij
          rw [hpc]
          simp only [(List.getElem?_eq_some_iff.mp hpc).1, if_true]
        · rfl
      cases pc <;> first | (cases hal; done) | (simp only [udpRun, hself]; exact h)
    | true =>
      have hlive := fun pc' => live_le h.one hpc hal pc'
      have hset := fun pc' hx => set_clean (pc' := pc') h.one hpc hal hx
      have hhead : w.loopHead ≠ .draining := by unfold World.loopHead; split <;> simp
      cases pc with
      | returned => cases hal
      | raised x => cases hal
      | spawned => exact h.same rfl rfl (hlive _) (fun hx => absurd (hset _ hx) hhead)
      | sleeping => exact h.same rfl rfl (hlive _) (fun hx => by have := hset _ hx; cases this)
      | receiving =>
        obtain ⟨h1, h2⟩ := receiveRound_looks hq.handler w.m.disp input
        have hops : ∃ ops, (receiveRound env.m w.m.disp input).2 = runOps env.m.disp w.m.disp ops := by
          cases input with
          | none => exact ⟨[.recv env.m.sender []], rfl⟩
          | some i => exact ⟨[.setHost env.m.sender ⟨.str i.ip, some i.port⟩, .recv env.m.sender (i.dg.take recvBuffer)], rfl⟩
        obtain ⟨ops, hops⟩ := hops
        have key : ∀ pc', pc' ≠ .draining → Tidy env hosts { w with m := w.m.setDisp (receiveRound env.m w.m.disp input).2, reads := w.reads + 1, loops := w.loops.set i pc' } := by
          intro pc' hpc'
          refine ⟨hlive _, fun hx => absurd (hset _ hx) hpc', reach_snoc h.reach ops hops, ?_, ?_, ?_, ?_⟩
          · intro r hr; simp only [MState.setDisp, h1 r hr]; exact h.host r hr
          · simp only [MState.setDisp, h2]; exact h.flags
          · simp only [MState.setDisp, h2]; exact h.acks
          · simp only [MState.setDisp, h2]; exact h.sent
        simp only [udpRun]
        cases hr : receiveRound env.m w.m.disp input with
        | mk r d =>
          rw [hr] at key
          cases r with
          | error x => exact key (.raised x) (by simp)
          | ok o => exact key .acking (by simp)
      | acking =>
        obtain ⟨d', new, h1, h2, h3, h4, h5⟩ := ackRound_all hq.outgoing hq.depth h.reach' ho
        have hops : ∃ ops, d' = runOps env.m.disp w.m.disp ops := by
          unfold ackRound at h1
          split at h1
          · exact ⟨[.processAcks order], by show d' = (processAcks env.m.disp w.m.disp order).2; rw [h1]⟩
          · cases h1; exact ⟨[], rfl⟩
        obtain ⟨ops, hops⟩ := hops
        simp only [udpRun, h1]
        have hname : ∀ x ∈ preparedMsgs new, x.2.name = "PacketAck" := by
          intro x hx
          obtain ⟨ids, _, _, l, _, _, _, h⟩ := h4 x hx
          exact h.1
        refine ⟨hlive _, fun _ => h5, reach_snoc h.reach ops hops, ?_, ?_, ?_, ?_⟩
        · intro r hr; simp only [MState.setDisp, h2]; exact h.host r hr
        · simp only [MState.setDisp, h3, preparedMsgs_append]
          intro x hx
          rcases List.mem_append.mp hx with hx | hx
          · exact h.flags x hx
          · obtain ⟨ids, _, hf, _⟩ := h4 x hx
            rw [hf]; rfl
        · simp only [MState.setDisp, h3, preparedMsgs_append]
          intro x hx hn
          rcases List.mem_append.mp hx with hx | hx
          · exact h.acks x hx hn
          · exact .inl (h4 x hx)
        · intro hok
          simp only [MState.setDisp, h3, preparedMsgs_append, List.filter_append, List.map_append]
          have hnil : (preparedMsgs new).filter (fun x => decide (x.2.name ≠ "PacketAck")) = [] := by
            rw [List.filter_eq_nil_iff]
            intro x hx; simp [hname x hx]
          rw [hnil, List.map_nil, List.append_nil]
          exact h.sent hok
      | draining =>
        have hmem : UdpAt.draining ∈ w.loops := List.mem_iff_getElem?.mpr ⟨i, hpc⟩
        simp only [udpRun]
        cases hqu : w.m.queue with
        | nil => exact h.same rfl rfl (hlive _) (fun hx => absurd (hset _ hx) hhead)
        | cons e q =>
          simp only
          have hcl := h.clean hmem
          obtain ⟨new, h1, h2, h3, h4⟩ := sendUdp_tidy hq (w.m.popped e q).disp e hcl
          have hd : (w.m.popped e q).disp = w.m.disp := rfl
          rw [hd] at h1 h2 h4
          have key : ∀ pc', Tidy env hosts { w with m := (w.m.popped e q).setDisp (sendUdpMessage env.m (w.m.popped e q).disp e).2, loops := w.loops.set i pc' } := by
            intro pc'
            refine ⟨hlive _, ?_, reach_snoc h.reach [queuedSend env.m.host e] (sendUdp_op _ _ _), ?_, ?_, ?_, ?_⟩
            · intro _ a
              simp only [MState.setDisp, hd]
              rw [h2.pend]; exact hcl a
            · intro r hr
              simp only [MState.setDisp, hd]
              rw [h2.hosts]; exact h.host r hr
            · simp only [MState.setDisp, hd, h1, preparedMsgs_append]
              intro x hx
              rcases List.mem_append.mp hx with hx | hx
              · exact h.flags x hx
              · exact (h3 x hx).1
            · simp only [MState.setDisp, h1, preparedMsgs_append, MState.popped]
              intro x hx hn
              rcases List.mem_append.mp hx with hx | hx
              · rcases h.acks x hx hn with h | ⟨e', he', hn'⟩
                · exact .inl h
                · exact .inr ⟨e', List.mem_append_left _ he', hn'⟩
              · exact .inr ⟨e, by simp, (h3 x hx).2.symm.trans hn⟩
            · intro hok
              simp only [MState.setDisp, h1, preparedMsgs_append, List.filter_append, List.map_append, MState.popped, h.sent hok]
              congr 1
              have hh := h.host env.m.host hq.host
              rw [hh] at h4
              have h4 := h4 hok
              by_cases hn : e.msg.name = "PacketAck"
              · have : (preparedMsgs new).filter (fun x => decide (x.2.name ≠ "PacketAck")) = [] := by
                  rw [List.filter_eq_nil_iff]
                  intro x hx
                  simp [(h3 x hx).2, hn]
                rw [this]
                simp [hn]
              · have : (preparedMsgs new).filter (fun x => decide (x.2.name ≠ "PacketAck")) = preparedMsgs new := by
                  rw [List.filter_eq_self]
                  intro x hx
                  simp [(h3 x hx).2, hn]
                rw [this, h4]
                simp [hn]
          cases hr : sendUdpMessage env.m (w.m.popped e q).disp e with
          | mk r d =>
            rw [hr] at key
            cases r with
            | error x => exact key (.raised x)
            | ok o => exact key .draining

theorem Tidy.act {env : CEnv} (hq : ThroughQueue env) {hosts : HostRef → Host} {w : World} (h : Tidy env hosts w) (a : Act) (hu : Usual w a) :
    Tidy env hosts (Pyogp.act env w a) := by
  cases a with
  | disp o => exact hu.elim
  | enqueue e => exact h.same rfl rfl h.one .inl
  | start =>
    have hl : liveLoops w = 0 := hu
    refine h.same rfl rfl ?_ ?_
    · have : liveLoops (Pyogp.act env w .start) = liveLoops w + 1 := by
        unfold liveLoops
        simp only [Pyogp.act, World.start, List.countP_append]
        rfl
      omega
    · intro hx
      simp only [Pyogp.act, World.start] at hx
      rcases List.mem_append.mp hx with hx | hx
      · exact .inl hx
      · simp at hx
  | stop => exact h.same rfl rfl h.one .inl
  | stopQueue => exact h.same rfl rfl h.one .inl
  | udp i input order => exact h.udp hq i input order hu
  | poller i o =>
    simp only [Pyogp.act]
    split
    · exact h.same rfl rfl h.one .inl
    · exact h

theorem usual_tidy {env : CEnv} (hq : ThroughQueue env) (hosts : HostRef → Host) (hasEq : Bool) {as : List Act}
    (h : UsualHistory env (World.init hosts hasEq) as) : Tidy env hosts (runActs env (World.init hosts hasEq) as) := by
  induction h with
  | nil => exact Tidy.init env hosts hasEq
  | snoc a _ hu ih => rw [runActs_snoc]; exact ih.act hq a hu

/-! ## Two of them -/

theorem pair_usual {envA envB : CEnv} {wA wB : World} {asA asB : List Act} (h : Pair envA envB wA wB asA asB) :
    UsualHistory envA wA asA ∧ UsualHistory envB wB asB := by
  induction h with
  | start => exact ⟨.nil, .nil⟩
  | actA a _ hu _ ih => exact ⟨.snoc a ih.1 hu, ih.2⟩
  | actB b _ hu _ ih => exact ⟨ih.1, .snoc b ih.2 hu⟩

/-- The uses of the dispatcher one action makes: some by the program itself and at most one reception. -/
theorem act_uses {env : CEnv} {w other : World} {a : Act} (hu : Usual w a) (hs : SentBy other a) (hsm : FitsBuffer other.m.disp.trace) :
    ∃ ops, (act env w a).m.disp = runOps env.m.disp w.m.disp ops ∧
      ∀ op ∈ ops, Own op ∨ ∃ r dg, op = .recv r dg ∧ ∃ x, (x, dg) ∈ sentDatagrams other.m.disp.trace := by
  cases a with
  | disp o => exact hu.elim
  | enqueue e => exact ⟨[], rfl, by simp⟩
  | start => exact ⟨[], rfl, by simp⟩
  | stop => exact ⟨[], rfl, by simp⟩
  | stopQueue => exact ⟨[], rfl, by simp⟩
  | poller i o =>
    simp only [act]
    split <;> exact ⟨[], rfl, by simp⟩
  | udp i input order =>
    simp only [act]
    split
    · exact ⟨[], rfl, by simp⟩
    · rename_i pc _
      cases pc <;> simp only [udpRun]
      case receiving =>
        have : ∃ ops, (receiveRound env.m w.m.disp input).2 = runOps env.m.disp w.m.disp ops ∧
            ∀ op ∈ ops, Own op ∨ ∃ r dg, op = .recv r dg ∧ ∃ x, (x, dg) ∈ sentDatagrams other.m.disp.trace := by
          cases input with
          | none => exact ⟨[], rfl, by simp⟩
          | some i =>
            obtain ⟨x, hx⟩ := hs
            refine ⟨[.setHost env.m.sender ⟨.str i.ip, some i.port⟩, .recv env.m.sender (i.dg.take recvBuffer)], rfl, ?_⟩
            intro op hop
            rcases List.mem_cons.mp hop with rfl | hop
            · exact .inl trivial
            · rw [List.mem_singleton] at hop
              subst hop
              refine .inr ⟨_, _, rfl, x, ?_⟩
              have hle : i.dg.length ≤ recvBuffer := hsm _ hx
              rw [List.take_of_length_le hle]
              exact hx
        split <;> rename_i he <;> rw [he] at this <;> exact this
      case acking =>
        have : ∃ ops, (ackRound env.m w.m.disp order).2 = runOps env.m.disp w.m.disp ops ∧
            ∀ op ∈ ops, Own op ∨ ∃ r dg, op = .recv r dg ∧ ∃ x, (x, dg) ∈ sentDatagrams other.m.disp.trace := by
          unfold ackRound
          split
          · exact ⟨[.processAcks order], rfl, by intro op hop; rw [List.mem_singleton] at hop; subst hop; exact .inl trivial⟩
          · exact ⟨[], rfl, by simp⟩
        split <;> rename_i he <;> rw [he] at this <;> exact this
      case draining =>
        split
        · exact ⟨[], rfl, by simp⟩
        · rename_i e q _
          have : ∃ ops, (sendUdpMessage env.m (w.m.popped e q).disp e).2 = runOps env.m.disp w.m.disp ops ∧
              ∀ op ∈ ops, Own op ∨ ∃ r dg, op = .recv r dg ∧ ∃ x, (x, dg) ∈ sentDatagrams other.m.disp.trace := by
            refine ⟨[queuedSend env.m.host e], sendUdp_op _ _ _, ?_⟩
            intro op hop; rw [List.mem_singleton] at hop; subst hop; exact .inl trivial
          split <;> rename_i he <;> rw [he] at this <;> exact this
      all_goals exact ⟨[], rfl, by simp⟩

theorem together_opsA {envA envB : DEnv} {hostsA hostsB : HostRef → Host} {b : DState} : ∀ (ops : List Op) (a : DState),
    (∀ op ∈ ops, Own op ∨ ∃ r dg, op = .recv r dg ∧ ∃ x, (x, dg) ∈ sentDatagrams b.trace) → Together envA envB hostsA hostsB a b →
    Together envA envB hostsA hostsB (runOps envA a ops) b
  | [], _, _, h => h
  | op :: ops, a, ho, h => by
    refine together_opsA ops (step envA a op) (fun o hm => ho o (List.mem_cons_of_mem _ hm)) ?_
    rcases ho op List.mem_cons_self with h1 | ⟨r, dg, rfl, x, hx⟩
    · exact .ownA op h h1
    · exact .recvA r x dg h hx

theorem together_opsB {envA envB : DEnv} {hostsA hostsB : HostRef → Host} {a : DState} : ∀ (ops : List Op) (b : DState),
    (∀ op ∈ ops, Own op ∨ ∃ r dg, op = .recv r dg ∧ ∃ x, (x, dg) ∈ sentDatagrams a.trace) → Together envA envB hostsA hostsB a b →
    Together envA envB hostsA hostsB a (runOps envB b ops)
  | [], _, _, h => h
  | op :: ops, b, ho, h => by
    refine together_opsB ops (step envB b op) (fun o hm => ho o (List.mem_cons_of_mem _ hm)) ?_
    rcases ho op List.mem_cons_self with h1 | ⟨r, dg, rfl, x, hx⟩
    · exact .ownB op h h1
    · exact .recvB r x dg h hx

theorem runOps_trace_prefix (env : DEnv) : ∀ (ops : List Op) (st : DState), st.trace <+: (runOps env st ops).trace
  | [], _ => List.prefix_refl _
  | op :: ops, st => (step_trace_prefix env st op).trans (runOps_trace_prefix env ops _)

theorem act_prefix (env : CEnv) (w : World) (a : Act) : w.m.disp.trace <+: (act env w a).m.disp.trace := by
  cases a with
  | disp o => exact step_trace_prefix _ _ _
  | udp i input order =>
    simp only [act]
    split
    · exact List.prefix_refl _
    · rename_i pc _
      obtain ⟨ops, _, h1, _⟩ := udpRun_ops env w input order pc
      simp only [h1]
      exact runOps_trace_prefix _ _ _
  | poller i o => simp only [act]; split <;> exact List.prefix_refl _
  | _ => exact List.prefix_refl _

theorem fits_prefix {a b : List Ev} (h : a <+: b) (hs : FitsBuffer b) : FitsBuffer a := fun x hx => hs x (sentDatagrams_mono h hx)

/-- The dispatchers of two managers that talk to each other. -/
theorem pair_together {envA envB : CEnv} {hostsA hostsB : HostRef → Host} {eqA eqB : Bool} {asA asB : List Act}
    (h : Pair envA envB (World.init hostsA eqA) (World.init hostsB eqB) asA asB) :
    FitsBuffer (runActs envA (World.init hostsA eqA) asA).m.disp.trace → FitsBuffer (runActs envB (World.init hostsB eqB) asB).m.disp.trace →
    Together envA.m.disp envB.m.disp hostsA hostsB (runActs envA (World.init hostsA eqA) asA).m.disp (runActs envB (World.init hostsB eqB) asB).m.disp := by
  induction h with
  | start => intro _ _; exact .start
  | actA a _ hu hs ih =>
    intro h1 h2
    rw [runActs_snoc] at h1 ⊢
    have h1' := fits_prefix (act_prefix envA _ a) h1
    obtain ⟨ops, e, ho⟩ := act_uses (env := envA) hu hs h2
    rw [e]
    exact together_opsA ops _ ho (ih h1' h2)
  | actB b _ hu hs ih =>
    intro h1 h2
    rw [runActs_snoc] at h2 ⊢
    have h2' := fits_prefix (act_prefix envB _ b) h2
    obtain ⟨ops, e, ho⟩ := act_uses (env := envB) hu hs h1
    rw [e]
    exact together_opsB ops _ ho (ih h1 h2')

end Pyogp
