import Verif.Props.Pair
import Verif.Spec.Storm
import Mathlib.Data.List.Perm.Subperm
import Mathlib.Tactic.Convert

/-!
# Acknowledgements of acknowledgements (C84)
-/

namespace Pyogp
open Spec

theorem decodeData_name {rt : Runtime} {t : Template} {data : Bytes} {m : Message} (h : decodeData rt (some t) data = .ok m) : m.name = t.name := by
  simp only [decodeData, ok_bind, bind_ok, liftPy_ok] at h
  obtain ⟨f, _, p, _, m1, hm1, o, _, r, _, h⟩ := h
  have hk : m1.name = t.name := by
    unfold decodeAckPart at hm1
    split at hm1
    · simp only [bind_ok] at hm1
      obtain ⟨n, _, hm1⟩ := hm1
      obtain ⟨ids, post, _, _, _, rfl⟩ := decodeAcks_inv hm1
      rfl
    · cases hm1; rfl
  split at h
  · cases h
  · cases h
    simp only
    split <;> exact hk

/-- A message whose name has no handler is skipped when parsing is deferred. -/
theorem deserialize_skipped {env : DeserEnv} {st : DeserState} {dg : Bytes} {m : Message} (h : (deserialize env.eager st dg).1 = .ok (some m))
    (hw : wantsParse env m.name = .ok false) : (deserialize env st dg).1 = .ok none := by
  obtain ⟨buf, acks, buf', t, h1, h2, h3, h4, h5, _, h7⟩ := deserialize_inv h
  rw [decodeData_name h7] at hw
  unfold deserialize
  simp only [h1, h2]
  have hd : decodeTemplate env st buf' = (.ok true, { currentTemplate := some t }) := by
    have : decodeTemplate env.eager st buf' = decodeTemplate env st buf' := rfl
    rw [← this]
    unfold decodeTemplate
    rw [if_neg (by omega)]
    simp [h4]
  unfold deserializeRest
  rw [hd]
  have h5' : validateUdpMsg env.xml t.name = .ok true := h5
  simp [currentName, h5', hw, ok_bind]

/-! ## Owing acknowledgements -/

/-- Something is waiting to be acknowledged. -/
def Owes (d : DState) : Prop := ∃ a, pending d a ≠ []

theorem owes_hasUnacked {d : DState} (h : Owes d) : hasUnacked d = true := by
  obtain ⟨a, ha⟩ := h
  unfold pending at ha
  unfold hasUnacked
  rw [List.any_eq_true]
  cases hc : d.circuits.get? a with
  | none => rw [hc] at ha; exact absurd rfl ha
  | some c =>
    rw [hc] at ha
    exact ⟨c, mem_values_of_get? hc, by simpa using List.length_pos_iff.mpr ha⟩

theorem hasUnacked_owes {d : DState} (hn : d.circuits.keys.Nodup) (h : hasUnacked d = true) : Owes d := by
  unfold hasUnacked at h
  rw [List.any_eq_true] at h
  obtain ⟨c, hc, hl⟩ := h
  obtain ⟨⟨a, c'⟩, hx, rfl⟩ := List.mem_map.mp hc
  refine ⟨a, ?_⟩
  unfold pending
  rw [Dict.get?_eq_some_of_mem hn hx]
  exact List.length_pos_iff.mp (by simpa using hl)

theorem ackCircuit_sends {env : DEnv} (hb : env.handleOutgoing = false) (hd : 0 < env.depth) (st : DState) (a : Addr)
    (hok : ∀ r, (st.hosts r).isOk = true) (hp : pending st a ≠ []) :
    ∃ st' new, ackCircuit env st a = (.ok (), st') ∧ st'.trace = st.trace ++ new ∧ ∃ x ∈ preparedMsgs new, x.2.name = "PacketAck" := by
  obtain ⟨st', new, h1, _, h3, _⟩ := ackCircuit_all hb hd st a
  refine ⟨st', new, h1, h3, ?_⟩
  unfold pending at hp
  cases hc : st.circuits.get? a with
  | none => rw [hc] at hp; exact absurd rfl hp
  | some c =>
    rw [hc] at hp
    have ho : OutgoingKeepHosts env st.hosts := by intro h; rw [hb] at h; cases h
    obtain ⟨parts, sel, new', g1, _, g3, g4, g5, g6, _⟩ := ackCircuit_ok ho rfl hc (hok _) h1
    have : new' = new := List.append_cancel_left (g3.symm.trans h3)
    subst this
    cases g6 with
    | nil => exact absurd g1.symm hp
    | cons hx _ => exact ⟨_, g4.subset List.mem_cons_self, hx.2.1⟩

theorem sendAcks_sends {env : DEnv} (hb : env.handleOutgoing = false) (hd : 0 < env.depth) : ∀ (order : List Addr) (st : DState),
    (∀ r, (st.hosts r).isOk = true) → (∃ a ∈ order, pending st a ≠ []) →
    ∃ new, (sendAcks env order st).2.trace = st.trace ++ new ∧ ∃ x ∈ preparedMsgs new, x.2.name = "PacketAck"
  | [], _, _, h => by obtain ⟨a, ha, _⟩ := h; cases ha
  | a :: as, st, hok, h => by
    obtain ⟨st1, new1, h1, h2, h3, _, h5⟩ := ackCircuit_all hb hd st a
    obtain ⟨st', new, g1, _, g3, _⟩ := sendAcks_all hb hd (fun _ => True) as st1 (fun _ _ _ => trivial)
    unfold sendAcks
    simp only [h1]
    by_cases hp : pending st a = []
    · obtain ⟨b, hb', hbp⟩ := h
      have hne : b ≠ a := by rintro rfl; exact hbp hp
      obtain ⟨new2, k1, x, k2, k3⟩ := sendAcks_sends hb hd as st1 (by rw [h2]; exact hok)
        ⟨b, by rcases List.mem_cons.mp hb' with h | h; exact absurd h hne; exact h, by rw [h5, if_neg hne]; exact hbp⟩
      refine ⟨new1 ++ new2, by rw [k1, h3, List.append_assoc], x, ?_, k3⟩
      rw [preparedMsgs_append]
      exact List.mem_append_right _ k2
    · obtain ⟨st2, new2, k1, k2, x, k3, k4⟩ := ackCircuit_sends hb hd st a hok hp
      rw [h1] at k1
      cases k1
      refine ⟨new2 ++ new, by rw [g1, g3, k2, List.append_assoc], x, ?_, k4⟩
      rw [preparedMsgs_append]
      exact List.mem_append_left _ k3

/-- Acknowledging when something is owed sends a `PacketAck`. -/
theorem ackRound_sends {env : MEnv} (hb : env.disp.handleOutgoing = false) (hd : 0 < env.disp.depth) {d : DState} (hr : Reach env.disp d)
    {order : List Addr} (ho : order.Perm d.circuits.keys) (hok : ∀ r, (d.hosts r).isOk = true) (hp : Owes d) :
    ∃ new, (ackRound env d order).2.trace = d.trace ++ new ∧ ∃ x ∈ preparedMsgs new, x.2.name = "PacketAck" := by
  have hres : resendAll d = .ok () := by
    obtain ⟨hosts, ops, rfl⟩ := hr
    unfold resendAll; rw [(reachable_inv env.disp hosts ops).noRetry]; rfl
  unfold ackRound
  rw [if_pos (owes_hasUnacked hp)]
  unfold processAcks
  simp only [hres]
  obtain ⟨a, ha⟩ := hp
  refine sendAcks_sends hb hd order d hok ⟨a, ?_, ha⟩
  rw [ho.mem_iff]
  by_contra hx
  exact ha (pending_not_key hx)

/-- A datagram made from a `PacketAck` as the library makes them. -/
def AckDg (senv : SerEnv) (dg : Bytes) : Prop :=
  ∃ q l, IsAckFor q l ∧ l ≠ [] ∧ l.length ≤ 251 ∧ (∀ i ∈ l, i < 2 ^ 32) ∧ q.sendFlags = 0 ∧ q.packetId < 2 ^ 31 ∧ serialize senv q = .ok (some dg)

theorem ackDg_read {senv : SerEnv} {renv : DeserEnv} {t : Template} (ht : AckTemplate t) (hc : Connected senv renv t) {dg : Bytes} (h : AckDg senv dg)
    (dst : DeserState) : ∃ m', (deserialize renv dst dg).1 = .ok (some m') ∧ m'.name = "PacketAck" := by
  obtain ⟨q, l, h1, h2, h3, h4, h5, h6, h7⟩ := h
  obtain ⟨dg', m', g1, g2, g3, _⟩ := prepared_arrives senv renv dst t q q hc ht.wf (ack_fills senv.rt ht h1 h2 (by omega) h4) rfl rfl
    (by rw [h5]; simp) h6
  rw [h7] at g1
  cases g1
  exact ⟨m', g2, g3.name.trans h1.1⟩

/-! ## One action -/

/-- What one action of a program does to what it owes, `p` telling which datagrams it must acknowledge. -/
structure Effect (p : Bytes → Prop) (d d' : DState) : Prop where
  owes : Owes d → Owes d' ∨ ∃ new, d'.trace = d.trace ++ new ∧ ∃ x ∈ preparedMsgs new, x.2.name = "PacketAck"
  received : receivedDatagrams d'.trace = receivedDatagrams d.trace ∨
    ∃ dg, receivedDatagrams d'.trace = receivedDatagrams d.trace ++ [dg] ∧ (p dg → Owes d')

theorem Effect.refl (p : Bytes → Prop) (d : DState) : Effect p d d := ⟨.inl, .inl rfl⟩

theorem transmit_received (env : DEnv) (st : DState) (m : Message) (r : HostRef) (mode : SendMode) :
    receivedDatagrams (transmit env st m r mode).2.trace = receivedDatagrams st.trace := by
  rw [(transmit_trace env st m r mode).1, receivedDatagrams_append]
  split <;> simp [receivedDatagrams]

theorem received_closed (env : DEnv) (l : List Bytes) : AckClosed env (fun _ _ => True) (fun st => receivedDatagrams st.trace = l) := by
  refine { hosts := ?_, outgoing := ?_, transmit := ?_, cleared := ?_ }
  · intro st r v _ h; exact h
  · intro st m h
    simp only [DState.log, receivedDatagrams_append, h]; simp [receivedDatagrams]
  · intro st m r mode h; rw [transmit_received, h]
  · intro st a c h _; exact h

/-- Receiving: what was owed is still owed, and an acknowledgement nobody handles is owed an acknowledgement. -/
theorem receive_effect {env : DEnv} (st : DState) (r : HostRef) (dg : Bytes)
    (ht : ∀ a c, st.circuits.get? a = some c → c.trusted = false) (p : Bytes → Prop)
    (hp : p dg → (deserialize (env.deser st.trace) st.deser dg).1 = .ok none) : Effect p st (receiveCheck env st r dg).2 := by
  by_cases hne : dg = []
  · subst hne
    have : receiveCheck env st r [] = (.ok none, st) := by unfold receiveCheck; simp
    rw [this]
    exact Effect.refl p st
  refine ⟨?_, ?_⟩
  · rintro ⟨a, ha⟩
    refine .inl ⟨a, ?_⟩
    cases hd : (deserialize (env.deser st.trace) st.deser dg).1 with
    | error e => rw [C23_malformed_not_queued env st r dg e hd]; exact ha
    | ok o =>
      cases o with
      | none =>
        obtain ⟨id, _, _, _, h⟩ := receive_unparsed env st r dg hd
        rw [h]; simp [ha]
      | some m =>
        rw [receive_parsed env st r dg m hd (fun c hc => ht _ c hc)]
        simp [ha]
  · right
    refine ⟨dg, ?_, ?_⟩
    · obtain ⟨_, h⟩ := recv_in env st r dg hne ht
      rw [receivedDatagrams_in, h, receivedDatagrams_append, ← receivedDatagrams_in]
      congr 1
      split
      · split <;> simp [receivedDatagrams]
      · simp [receivedDatagrams]
    · intro hx
      obtain ⟨id, _, _, _, h⟩ := receive_unparsed env st r dg (hp hx)
      exact ⟨(st.hosts r).addr, by rw [h]; simp⟩

/-- While something is owed, the UDP client knows where from. -/
def SenderKnown (env : CEnv) (w : World) : Prop := Owes w.m.disp → (w.m.disp.hosts env.m.sender).isOk = true

theorem str_isOk (ip : String) (port : Nat) (h : port ≠ 0) : (⟨.str ip, some port⟩ : Host).isOk = true := by
  simp [Host.isOk, h]

theorem act_effect {env : CEnv} (hq : ThroughQueue env) {hosts : HostRef → Host} (hok : ∀ r, r ≠ env.m.sender → (hosts r).isOk = true) {w : World}
    (h : Tidy env hosts w) (hk : SenderKnown env w) (ht : ∀ a c, w.m.disp.circuits.get? a = some c → c.trusted = false) (a : Act) (hu : Usual w a)
    (hf : FromPort a) (p : Bytes → Prop) (hp : ∀ tr dst dg, p dg → (deserialize (env.m.disp.deser tr) dst dg).1 = .ok none) :
    SenderKnown env (act env w a) ∧ Effect p w.m.disp (act env w a).m.disp := by
  have hall : Owes w.m.disp → ∀ r, (w.m.disp.hosts r).isOk = true := by
    intro ho r
    by_cases hr : r = env.m.sender
    · subst hr; exact hk ho
    · rw [h.host r hr]; exact hok r hr
  cases a with
  | disp o => exact hu.elim
  | enqueue e => exact ⟨hk, Effect.refl p _⟩
  | start => exact ⟨hk, Effect.refl p _⟩
  | stop => exact ⟨hk, Effect.refl p _⟩
  | stopQueue => exact ⟨hk, Effect.refl p _⟩
  | poller i o => simp only [act]; split <;> exact ⟨hk, Effect.refl p _⟩
  | udp i input order =>
    simp only [act]
    split
    · exact ⟨hk, Effect.refl p _⟩
    · rename_i pc hpc
      cases pc with
      | receiving =>
        have key : (Owes (receiveRound env.m w.m.disp input).2 → ((receiveRound env.m w.m.disp input).2.hosts env.m.sender).isOk = true) ∧
            Effect p w.m.disp (receiveRound env.m w.m.disp input).2 := by
          cases input with
          | none =>
            have : (receiveRound env.m w.m.disp none).2 = w.m.disp := by simp [receiveRound, receiveCheck]
            rw [this]
            exact ⟨hk, Effect.refl p _⟩
          | some i =>
            obtain ⟨h1, _⟩ := receive_looks hq.handler (netReceive w.m.disp env.m.sender i.ip i.port) env.m.sender (i.dg.take recvBuffer)
            refine ⟨?_, ?_⟩
            · intro _
              rw [receiveRound, h1]
              simp only [netReceive, if_true]
              exact str_isOk _ _ hf
            · have := receive_effect (netReceive w.m.disp env.m.sender i.ip i.port) env.m.sender (i.dg.take recvBuffer) ht p (hp _ _ _)
              exact ⟨this.owes, this.received⟩
        simp only [udpRun]
        cases hr : receiveRound env.m w.m.disp input with
        | mk r d =>
          rw [hr] at key
          cases r <;> exact key
      | acking =>
        obtain ⟨d', new, h1, h2, h3, h4, h5⟩ := ackRound_all hq.outgoing hq.depth h.reach' hu
        have hno : ¬ Owes d' := by rintro ⟨a, ha⟩; exact ha (h5 a)
        have hrec : receivedDatagrams d'.trace = receivedDatagrams w.m.disp.trace := by
          unfold ackRound at h1
          split at h1
          · have := processAcks_preserves (received_closed env.m.disp (receivedDatagrams w.m.disp.trace)) (fun _ _ => Prog.mutates_any _) w.m.disp order rfl
            rw [h1] at this
            exact this
          · cases h1; rfl
        simp only [udpRun, h1]
        refine ⟨fun ho => absurd ho hno, ?_, .inl hrec⟩
        intro ho
        right
        have := ackRound_sends hq.outgoing hq.depth h.reach' hu (hall ho) ho
        rw [h1] at this
        exact this
      | draining =>
        simp only [udpRun]
        cases hqu : w.m.queue with
        | nil => exact ⟨hk, Effect.refl p _⟩
        | cons e q =>
          simp only
          have hd : (w.m.popped e q).disp = w.m.disp := rfl
          have hcl := h.clean (List.mem_iff_getElem?.mpr ⟨i, hpc⟩)
          obtain ⟨new, h1, h2, _, _⟩ := sendUdp_tidy hq (w.m.popped e q).disp e hcl
          rw [hd] at h1 h2
          have hno : ¬ Owes w.m.disp := by rintro ⟨a, ha⟩; exact ha (hcl a)
          have hno' : ¬ Owes (sendUdpMessage env.m w.m.disp e).2 := by rintro ⟨a, ha⟩; rw [h2.pend] at ha; exact ha (hcl a)
          have hrec : receivedDatagrams (sendUdpMessage env.m w.m.disp e).2.trace = receivedDatagrams w.m.disp.trace := by
            rw [sendUdp_mode]
            exact send_preserves (received_closed env.m.disp (receivedDatagrams w.m.disp.trace)).toSendClosed (fun _ _ => Prog.mutates_any _) w.m.disp _ _ _ rfl
          have key : (Owes (sendUdpMessage env.m w.m.disp e).2 → ((sendUdpMessage env.m w.m.disp e).2.hosts env.m.sender).isOk = true) ∧
              Effect p w.m.disp (sendUdpMessage env.m w.m.disp e).2 := ⟨fun ho => absurd ho hno', fun ho => absurd ho hno, .inl hrec⟩
          rw [hd]
          cases hr : sendUdpMessage env.m w.m.disp e with
          | mk r d =>
            rw [hr] at key
            cases r <;> exact key
      | spawned => exact ⟨hk, Effect.refl p _⟩
      | sleeping => exact ⟨hk, Effect.refl p _⟩
      | returned => exact ⟨hk, Effect.refl p _⟩
      | raised x => exact ⟨hk, Effect.refl p _⟩

/-! ## Both together -/

open Classical in
/-- How many of these datagrams are acknowledgements. -/
noncomputable def ackCount (p : Bytes → Prop) (l : List Bytes) : Nat := l.countP (fun dg => decide (p dg))

theorem ackCount_append (p : Bytes → Prop) (a b : List Bytes) : ackCount p (a ++ b) = ackCount p a + ackCount p b := by
  simp [ackCount, List.countP_append]

theorem ackCount_pos {p : Bytes → Prop} {l : List Bytes} {dg : Bytes} (h : dg ∈ l) (hp : p dg) : 0 < ackCount p l := by
  unfold ackCount
  rw [List.countP_pos_iff]
  exact ⟨dg, h, by simpa using hp⟩

def sentBytes (d : DState) : List Bytes := (sentDatagrams d.trace).map (·.2)

/-- No acknowledgement was sent so far, or one is in flight, or one is owed. -/
def Awake (p q : Bytes → Prop) (a b : DState) : Prop :=
  ((∀ x ∈ preparedMsgs a.trace, x.2.name ≠ "PacketAck") ∧ ∀ x ∈ preparedMsgs b.trace, x.2.name ≠ "PacketAck") ∨
  ackCount p (receivedDatagrams b.trace) < ackCount p (sentBytes a) ∨ ackCount q (receivedDatagrams a.trace) < ackCount q (sentBytes b) ∨ Owes a ∨ Owes b

theorem Awake.symm {p q : Bytes → Prop} {a b : DState} : Awake p q a b → Awake q p b a := by
  rintro (⟨h1, h2⟩ | h | h | h | h)
  · exact .inl ⟨h2, h1⟩
  · exact .inr (.inr (.inl h))
  · exact .inr (.inl h)
  · exact .inr (.inr (.inr (.inr h)))
  · exact .inr (.inr (.inr (.inl h)))

theorem Awake.step {p q : Bytes → Prop} {a a' b : DState} (h : Awake p q a b) (he : Effect q a a') (hpre : a.trace <+: a'.trace)
    (hnew : ∀ new, a'.trace = a.trace ++ new → (∃ x ∈ preparedMsgs new, x.2.name = "PacketAck") → ∃ y ∈ sentDatagrams new, p y.2)
    (hle : ackCount p (receivedDatagrams b.trace) ≤ ackCount p (sentBytes a)) : Awake p q a' b := by
  obtain ⟨new, hn⟩ := hpre
  have hsent : sentBytes a' = sentBytes a ++ (sentDatagrams new).map (·.2) := by
    unfold sentBytes; rw [← hn, sentDatagrams_append, List.map_append]
  by_cases hx : ∃ x ∈ preparedMsgs new, x.2.name = "PacketAck"
  · obtain ⟨y, hy, hpy⟩ := hnew new hn.symm hx
    have := ackCount_pos (List.mem_map_of_mem (f := (·.2)) hy) hpy
    refine .inr (.inl ?_)
    rw [hsent, ackCount_append]
    omega
  · have howes : Owes a → Owes a' := by
      intro ho
      rcases he.owes ho with h | ⟨new', h1, h2⟩
      · exact h
      · have : new' = new := List.append_cancel_left (h1.symm.trans hn.symm)
        subst this
        exact absurd h2 hx
    rcases h with ⟨h1, h2⟩ | h | h | h | h
    · refine .inl ⟨?_, h2⟩
      rw [← hn, preparedMsgs_append]
      intro x hm hxn
      rcases List.mem_append.mp hm with hm | hm
      · exact h1 x hm hxn
      · exact hx ⟨x, hm, hxn⟩
    · refine .inr (.inl ?_)
      rw [hsent, ackCount_append]
      omega
    · rcases he.received with hr | ⟨dg, hr, hq⟩
      · exact .inr (.inr (.inl (by rw [hr]; exact h)))
      · by_cases hqd : q dg
        · exact .inr (.inr (.inr (.inl (hq hqd))))
        · refine .inr (.inr (.inl ?_))
          rw [hr, ackCount_append]
          have : ackCount q [dg] = 0 := by unfold ackCount; simp [hqd]
          omega
    · exact .inr (.inr (.inr (.inl (howes h))))
    · exact .inr (.inr (.inr (.inr h)))

theorem noneTwice_ackCount {w other : World} (h : NoneTwice w other) (p : Bytes → Prop) :
    ackCount p (receivedDatagrams w.m.disp.trace) ≤ ackCount p (sentBytes other.m.disp) := by
  unfold ackCount
  refine List.Subperm.countP_le _ (List.subperm_iff_count.mpr ?_)
  intro dg
  convert h dg
  rfl

theorem noneTwice_later {w other other' : World} (h : NoneTwice w other) (hpre : other.m.disp.trace <+: other'.m.disp.trace) : NoneTwice w other' := by
  obtain ⟨new, hn⟩ := hpre
  intro dg
  rw [← hn, sentDatagrams_append, List.map_append, List.count_append]
  have := h dg
  omega

theorem exchange_pair {envA envB : CEnv} {wA wB : World} {asA asB : List Act} (h : Exchange envA envB wA wB asA asB) : Pair envA envB wA wB asA asB := by
  induction h with
  | start => exact .start
  | actA a _ h1 h2 _ _ ih => exact .actA a ih h1 h2
  | actB a _ h1 h2 _ _ ih => exact .actB a ih h1 h2

theorem usualHistory_init {env : CEnv} {w : World} {as : List Act} {a : Act} (h : UsualHistory env w (as ++ [a])) : UsualHistory env w as := by
  generalize hl : as ++ [a] = l at h
  cases h with
  | nil => simp at hl
  | snoc b hb _ =>
    have := List.append_inj' hl rfl
    rw [this.1]
    exact hb

/-- A `PacketAck` that was prepared was sent. -/
theorem ack_sent {env : CEnv} (hq : ThroughQueue env) {hosts : HostRef → Host} {hasEq : Bool} {as : List Act} {a : Act}
    (hu : UsualHistory env (World.init hosts hasEq) (as ++ [a])) (hok : (hosts env.m.host).isOk = true)
    (hn : ∀ e ∈ enqueuedIn (as ++ [a]), e.msg.name ≠ "PacketAck") (hnet : ∀ tr x dg, env.m.disp.net tr x dg = true)
    {renv : DeserEnv} {t : Template} (ht : AckTemplate t) (hc : Connected env.m.disp.ser renv t)
    (hfew : (preparedMsgs (runActs env (World.init hosts hasEq) (as ++ [a])).m.disp.trace).length < 2 ^ 31) (new : List Ev)
    (hnew : (act env (runActs env (World.init hosts hasEq) as) a).m.disp.trace = (runActs env (World.init hosts hasEq) as).m.disp.trace ++ new)
    (hx : ∃ x ∈ preparedMsgs new, x.2.name = "PacketAck") : ∃ y ∈ sentDatagrams new, AckDg env.m.disp.ser y.2 := by
  obtain ⟨x, hx, hxn⟩ := hx
  have h2 := (C83_what_is_sent env hq hosts hasEq _ hu hok hn).2
  have ht' := usual_tidy hq hosts hasEq hu
  have ht0 : Tidy env hosts (runActs env (World.init hosts hasEq) as) := by
    exact usual_tidy hq hosts hasEq (usualHistory_init hu)
  rw [runActs_snoc] at h2 hfew ht'
  obtain ⟨ops, hops⟩ := ht'.reach
  obtain ⟨ops0, hops0⟩ := ht0.reach
  have hall := (reachable_sent env.m.disp hosts ops).all hnet
  have hids := (reachable_sent env.m.disp hosts ops).ids
  have hall0 := (reachable_sent env.m.disp hosts ops0).all hnet
  rw [← hops] at hall hids
  rw [← hops0] at hall0
  generalize (act env (runActs env (World.init hosts hasEq) as) a).m.disp = d' at *
  generalize (runActs env (World.init hosts hasEq) as).m.disp = d at *
  rw [hnew, sentDatagrams_append, preparedMsgs_append, List.filterMap_append, hall0] at hall
  have hs := List.append_cancel_left hall
  have hxm : x ∈ preparedMsgs d'.trace := by rw [hnew, preparedMsgs_append]; exact List.mem_append_right _ hx
  obtain ⟨hfl, l, hl1, hl2, hl3, hl4⟩ := h2 x hxm hxn
  have hid : x.2.packetId < 2 ^ 31 := Nat.lt_of_le_of_lt (hids x hxm) hfew
  obtain ⟨dg, m', g1, _⟩ := prepared_arrives env.m.disp.ser renv {} t x.2 x.2 hc ht.wf (ack_fills _ ht hl4 hl1 (by omega) hl3) rfl rfl (by rw [hfl]; simp) hid
  refine ⟨(x.1, dg), ?_, x.2, l, hl4, hl1, hl2, hl3, hfl, hid, g1⟩
  rw [hs, List.mem_filterMap]
  exact ⟨x, hx, by unfold datagramOf; rw [g1]⟩

/-- Both programs and what is between them. -/
theorem exchange_awake {envA envB : CEnv} (hA : ThroughQueue envA) (hB : ThroughQueue envB) {hostsA hostsB : HostRef → Host} {eqA eqB : Bool}
    (hokA : ∀ r, r ≠ envA.m.sender → (hostsA r).isOk = true) (hokB : ∀ r, r ≠ envB.m.sender → (hostsB r).isOk = true)
    (hnetA : ∀ tr x dg, envA.m.disp.net tr x dg = true) (hnetB : ∀ tr x dg, envB.m.disp.net tr x dg = true)
    {tA tB : Template} (htA : AckTemplate tA) (htB : AckTemplate tB) (hcA : ∀ tr, Connected envA.m.disp.ser (envB.m.disp.deser tr).eager tA)
    (hcB : ∀ tr, Connected envB.m.disp.ser (envA.m.disp.deser tr).eager tB) (hiA : IgnoresAcks envA) (hiB : IgnoresAcks envB)
    {asA asB : List Act} (h : Exchange envA envB (World.init hostsA eqA) (World.init hostsB eqB) asA asB) :
    let a := runActs envA (World.init hostsA eqA) asA
    let b := runActs envB (World.init hostsB eqB) asB
    FitsBuffer a.m.disp.trace → FitsBuffer b.m.disp.trace → (preparedMsgs a.m.disp.trace).length < 2 ^ 31 → (preparedMsgs b.m.disp.trace).length < 2 ^ 31 →
    (∀ e ∈ enqueuedIn asA, e.msg.name ≠ "PacketAck") → (∀ e ∈ enqueuedIn asB, e.msg.name ≠ "PacketAck") →
    SenderKnown envA a ∧ SenderKnown envB b ∧ NoneTwice a b ∧ NoneTwice b a ∧ Awake (AckDg envA.m.disp.ser) (AckDg envB.m.disp.ser) a.m.disp b.m.disp := by
  have hskip : ∀ {env renv : CEnv} {t : Template}, AckTemplate t → (∀ tr, Connected env.m.disp.ser (renv.m.disp.deser tr).eager t) → IgnoresAcks renv →
      ∀ tr dst dg, AckDg env.m.disp.ser dg → (deserialize (renv.m.disp.deser tr) dst dg).1 = .ok none := by
    intro env renv t ht hc hi tr dst dg hd
    obtain ⟨m', h1, h2⟩ := ackDg_read ht (hc tr) hd dst
    obtain ⟨h3, names, h4, h5⟩ := hi tr
    refine deserialize_skipped h1 ?_
    unfold wantsParse
    rw [h4, h2, h3]
    simp [h5]
  have henq : ∀ (as : List Act) (a : Act), (∀ e ∈ enqueuedIn (as ++ [a]), e.msg.name ≠ "PacketAck") → ∀ e ∈ enqueuedIn as, e.msg.name ≠ "PacketAck" := by
    intro as a h e he
    refine h e ?_
    unfold enqueuedIn
    rw [List.filterMap_append]
    exact List.mem_append_left _ he
  have hlen : ∀ (env : CEnv) (w : World) (a : Act), (preparedMsgs (act env w a).m.disp.trace).length < 2 ^ 31 → (preparedMsgs w.m.disp.trace).length < 2 ^ 31 := by
    intro env w a hl
    obtain ⟨new, hn⟩ := act_prefix env w a
    rw [← hn, preparedMsgs_append, List.length_append] at hl
    omega
  induction h with
  | start =>
    intro a b _ _ _ _ _ _
    refine ⟨?_, ?_, ?_, ?_, .inl ⟨?_, ?_⟩⟩
    · rintro ⟨x, hx⟩; exact absurd rfl hx
    · rintro ⟨x, hx⟩; exact absurd rfl hx
    · intro dg; exact Nat.le_refl _
    · intro dg; exact Nat.le_refl _
    · intro x hx; cases hx
    · intro x hx; cases hx
  | @actA asA asB a hex hu hs hf h2 ih =>
    intro wA wB f1 f2 l1 l2 e1 e2
    have hp := exchange_pair (Exchange.actA a hex hu hs hf h2)
    have huA := (pair_usual hp).1
    have hwA : wA = act envA (runActs envA (World.init hostsA eqA) asA) a := runActs_snoc _ _ _ _
    rw [hwA] at f1 l1
    have hpre := act_prefix envA (runActs envA (World.init hostsA eqA) asA) a
    have f1' := fits_prefix hpre f1
    obtain ⟨i1, i2, i3, i4, i5⟩ := ih f1' f2 (hlen _ _ _ l1) l2 (henq _ _ e1) e2
    have htid := usual_tidy hA hostsA eqA (usualHistory_init huA)
    have hside := (together_sides (pair_together (exchange_pair hex) f1' f2)).1
    obtain ⟨k1, k2⟩ := act_effect hA hokA htid i1 hside.noTrust a hu hf _ (hskip htB hcB hiA)
    have hnew := fun new hnw hx => ack_sent hA huA (hokA _ hA.host) e1 hnetA htA (hcA []) (by rw [runActs_snoc]; exact l1) new hnw hx
    rw [hwA]
    refine ⟨k1, i2, ?_, noneTwice_later i4 hpre, i5.step k2 hpre hnew (noneTwice_ackCount i4 _)⟩
    rw [runActs_snoc] at h2
    exact h2
  | @actB asA asB b hex hu hs hf h2 ih =>
    intro wA wB f1 f2 l1 l2 e1 e2
    have hp := exchange_pair (Exchange.actB b hex hu hs hf h2)
    have huB := (pair_usual hp).2
    have hwB : wB = act envB (runActs envB (World.init hostsB eqB) asB) b := runActs_snoc _ _ _ _
    rw [hwB] at f2 l2
    have hpre := act_prefix envB (runActs envB (World.init hostsB eqB) asB) b
    have f2' := fits_prefix hpre f2
    obtain ⟨i1, i2, i3, i4, i5⟩ := ih f1 f2' l1 (hlen _ _ _ l2) e1 (henq _ _ e2)
    have htid := usual_tidy hB hostsB eqB (usualHistory_init huB)
    have hside := (together_sides (pair_together (exchange_pair hex) f1 f2')).2
    obtain ⟨k1, k2⟩ := act_effect hB hokB htid i2 hside.noTrust b hu hf _ (hskip htA hcA hiB)
    have hnew := fun new hnw hx => ack_sent hB huB (hokB _ hB.host) e2 hnetB htB (hcB []) (by rw [runActs_snoc]; exact l2) new hnw hx
    rw [hwB]
    refine ⟨i1, k1, noneTwice_later i3 hpre, ?_, (i5.symm.step k2 hpre hnew (noneTwice_ackCount i3 _)).symm⟩
    rw [runActs_snoc] at h2
    exact h2

/-- Two programs as in C83 with the default configuration: subscribers only look, nobody subscribed to `PacketAck`, valid hosts, a working socket, both
know the `PacketAck` template and neither enqueues a `PacketAck` by itself. -/
structure Defaults (env peer : CEnv) (hosts : HostRef → Host) (as : List Act) : Prop where
  through : ThroughQueue env
  ignores : IgnoresAcks env
  hosts : ∀ r, r ≠ env.m.sender → (hosts r).isOk = true
  net : ∀ tr x dg, env.m.disp.net tr x dg = true
  acks : ∃ t, AckTemplate t ∧ ∀ tr, Connected env.m.disp.ser (peer.m.disp.deser tr).eager t
  enqueued : ∀ e ∈ enqueuedIn as, e.msg.name ≠ "PacketAck"

/-- **C84, never at rest.** Once one of the two programs has acknowledged anything, in every state they can get into, if the network has delivered
everything that was sent, one of them has something to acknowledge (`has_unacked`): acknowledgements are acknowledged, without end. -/
theorem C84_never_at_rest {envA envB : CEnv} {hostsA hostsB : HostRef → Host} {eqA eqB : Bool} {asA asB : List Act}
    (hA : Defaults envA envB hostsA asA) (hB : Defaults envB envA hostsB asB)
    (h : Exchange envA envB (World.init hostsA eqA) (World.init hostsB eqB) asA asB) :
    let a := runActs envA (World.init hostsA eqA) asA
    let b := runActs envB (World.init hostsB eqB) asB
    FitsBuffer a.m.disp.trace → FitsBuffer b.m.disp.trace → (preparedMsgs a.m.disp.trace).length < 2 ^ 31 → (preparedMsgs b.m.disp.trace).length < 2 ^ 31 →
    (∃ x ∈ preparedMsgs a.m.disp.trace ++ preparedMsgs b.m.disp.trace, x.2.name = "PacketAck") →
    AllArrived a b → AllArrived b a → hasUnacked a.m.disp = true ∨ hasUnacked b.m.disp = true := by
  intro a b f1 f2 l1 l2 hx r1 r2
  obtain ⟨tA, htA, hcA⟩ := hA.acks
  obtain ⟨tB, htB, hcB⟩ := hB.acks
  obtain ⟨_, _, _, _, hw⟩ := exchange_awake hA.through hB.through hA.hosts hB.hosts hA.net hB.net htA htB hcA hcB hA.ignores hB.ignores h f1 f2 l1 l2
    hA.enqueued hB.enqueued
  have hcount : ∀ (p : Bytes → Prop) {l l' : List Bytes}, l.Perm l' → ackCount p l = ackCount p l' := by
    intro p l l' hl; unfold ackCount; exact hl.countP_eq _
  rcases hw with ⟨h1, h2⟩ | h | h | h | h
  · obtain ⟨x, hx, hxn⟩ := hx
    rcases List.mem_append.mp hx with hx | hx
    · exact absurd hxn (h1 x hx)
    · exact absurd hxn (h2 x hx)
  · rw [hcount _ r2] at h; exact absurd h (Nat.lt_irrefl _)
  · rw [hcount _ r1] at h; exact absurd h (Nat.lt_irrefl _)
  · exact .inl (owes_hasUnacked h)
  · exact .inr (owes_hasUnacked h)

/-- **C84, and it goes on.** In every state the two can get into, when a program has something to acknowledge (`has_unacked`) and its loop, having
received, comes to acknowledging, at least one more datagram leaves: a `PacketAck`. -/
theorem C84_next_round {envA envB : CEnv} {hostsA hostsB : HostRef → Host} {eqA eqB : Bool} {asA asB : List Act}
    (hA : Defaults envA envB hostsA asA) (hB : Defaults envB envA hostsB asB)
    (h : Exchange envA envB (World.init hostsA eqA) (World.init hostsB eqB) asA asB) (i : Nat) (order : List Addr) :
    let a := runActs envA (World.init hostsA eqA) asA
    let b := runActs envB (World.init hostsB eqB) asB
    let a' := act envA a (.udp i none order)
    FitsBuffer a.m.disp.trace → FitsBuffer b.m.disp.trace → (preparedMsgs a'.m.disp.trace).length < 2 ^ 31 → (preparedMsgs b.m.disp.trace).length < 2 ^ 31 →
    order.Perm a.m.disp.circuits.keys → a.loops[i]? = some .acking → hasUnacked a.m.disp = true →
    (sentDatagrams a.m.disp.trace).length < (sentDatagrams a'.m.disp.trace).length ∧ a'.loops[i]? = some .draining ∧
      ∃ x ∈ preparedMsgs (a'.m.disp.trace.drop a.m.disp.trace.length), x.2.name = "PacketAck" := by
  intro a b a' f1 f2 l1 l2 ho hi hun
  obtain ⟨tA, htA, hcA⟩ := hA.acks
  obtain ⟨tB, htB, hcB⟩ := hB.acks
  have hu := (pair_usual (exchange_pair h)).1
  have htid : Tidy envA hostsA a := usual_tidy hA.through hostsA eqA hu
  have hus : Usual a (.udp i none order) := ho
  have l1' : (preparedMsgs a.m.disp.trace).length < 2 ^ 31 := by
    obtain ⟨new, hn⟩ := act_prefix envA a (.udp i none order)
    have : a'.m.disp.trace = a.m.disp.trace ++ new := hn.symm
    rw [this, preparedMsgs_append, List.length_append] at l1
    omega
  obtain ⟨hk, _⟩ := exchange_awake hA.through hB.through hA.hosts hB.hosts hA.net hB.net htA htB hcA hcB hA.ignores hB.ignores h f1 f2 l1' l2
    hA.enqueued hB.enqueued
  have hnod : a.m.disp.circuits.keys.Nodup := by
    obtain ⟨ops, hops⟩ := htid.reach
    rw [hops]; exact (reachable_inv envA.m.disp hostsA ops).nodup
  have how := hasUnacked_owes hnod hun
  have hall : ∀ r, (a.m.disp.hosts r).isOk = true := by
    intro r
    by_cases hr : r = envA.m.sender
    · subst hr; exact hk how
    · rw [htid.host r hr]; exact hA.hosts r hr
  obtain ⟨new, h1, h2⟩ := ackRound_sends hA.through.outgoing hA.through.depth htid.reach' ho hall how
  obtain ⟨d', _, e1, _⟩ := ackRound_all hA.through.outgoing hA.through.depth htid.reach' ho
  have hd : a'.m.disp = (ackRound envA.m a.m.disp order).2 ∧ a'.loops = a.loops.set i .draining := by
    show (act envA a (.udp i none order)).m.disp = _ ∧ (act envA a (.udp i none order)).loops = _
    constructor
    · simp only [act, hi, udpRun, e1]; rfl
    · simp only [act, hi, udpRun, e1]
  have h1' : a'.m.disp.trace = a.m.disp.trace ++ new := by rw [hd.1]; exact h1
  have henq : ∀ e ∈ enqueuedIn (asA ++ [.udp i none order]), e.msg.name ≠ "PacketAck" := by
    intro e he
    refine hA.enqueued e ?_
    simpa [enqueuedIn] using he
  obtain ⟨y, hy, _⟩ := ack_sent hA.through (hu.snoc (.udp i none order) hus) (hA.hosts _ hA.through.host) henq hA.net htA (hcA [])
    (by rw [runActs_snoc]; exact l1) new h1' h2
  refine ⟨?_, ?_, ?_⟩
  · rw [h1', sentDatagrams_append, List.length_append]
    have := List.length_pos_of_mem hy
    omega
  · rw [hd.2, List.getElem?_set_self (List.getElem?_eq_some_iff.mp hi).1]
  · rw [h1', List.drop_left]
    exact h2

/-- **C84, what stops it.** A subscriber of `PacketAck` on the receiving side does (`Connected`: the message is handled, or parsing is not deferred): in every
state of the receiver, an acknowledgement that such a program sent leaves what is owed to anybody as it was. -/
theorem C84_subscriber_stops {env : CEnv} (hq : ThroughQueue env) (hosts : HostRef → Host) (hasEq : Bool) (as : List Act)
    (h : UsualHistory env (World.init hosts hasEq) as) (hok : (hosts env.m.host).isOk = true) (hn : ∀ e ∈ enqueuedIn as, e.msg.name ≠ "PacketAck")
    (hfew : (preparedMsgs (runActs env (World.init hosts hasEq) as).m.disp.trace).length < 2 ^ 31) (t : Template) (ht : AckTemplate t)
    (envB : DEnv) (stB : DState) (r : HostRef) (hc : Connected env.m.disp.ser (envB.deser stB.trace) t)
    (hu : ∀ c, stB.circuits.get? (stB.hosts r).addr = some c → c.trusted = false) :
    ∀ x ∈ preparedMsgs (runActs env (World.init hosts hasEq) as).m.disp.trace, x.2.name = "PacketAck" →
      ∃ dg, serialize env.m.disp.ser x.2 = .ok (some dg) ∧ ∀ a, pending (receiveCheck envB stB r dg).2 a = pending stB a := by
  intro x hx hxn
  obtain ⟨hfl, l, hl1, hl2, hl3, hl4⟩ := (C83_what_is_sent env hq hosts hasEq _ h hok hn).2 x hx hxn
  obtain ⟨ops, hops⟩ := (usual_tidy hq hosts hasEq h).reach
  have hids := (reachable_sent env.m.disp hosts ops).ids
  rw [← hops] at hids
  obtain ⟨dg, m', g1, g2, _, _, g5, _⟩ := prepared_arrives env.m.disp.ser (envB.deser stB.trace) stB.deser t x.2 x.2 hc ht.wf
    (ack_fills _ ht hl4 hl1 (by omega) hl3) rfl rfl (by rw [hfl]; simp) (Nat.lt_of_le_of_lt (hids x hx) hfew)
  refine ⟨dg, g1, fun a => ?_⟩
  rw [receive_parsed envB stB r dg m' g2 hu a, g5, hfl]
  simp

/-! ## A concrete case -/

def fromPortB : Act → Bool
  | .udp _ (some i) _ => i.port != 0
  | _ => true

def noneTwiceB (w other : World) : Bool :=
  (receivedDatagrams w.m.disp.trace).all (fun dg => (receivedDatagrams w.m.disp.trace).count dg ≤ ((sentDatagrams other.m.disp.trace).map (·.2)).count dg)

def exchangeB (envA envB : CEnv) : World → World → List (Bool × Act) → Bool
  | _, _, [] => true
  | a, b, (true, x) :: ms => usualB a x && sentByB b x && fromPortB x && noneTwiceB (act envA a x) b && exchangeB envA envB (act envA a x) b ms
  | a, b, (false, x) :: ms => usualB b x && sentByB a x && fromPortB x && noneTwiceB (act envB b x) a && exchangeB envA envB a (act envB b x) ms

theorem fromPort_of_b {a : Act} (h : fromPortB a = true) : FromPort a := by
  cases a with
  | udp i input order =>
    cases input with
    | none => trivial
    | some i => simpa [fromPortB, FromPort] using h
  | _ => trivial

theorem noneTwice_of_b {w other : World} (h : noneTwiceB w other = true) : NoneTwice w other := by
  intro dg
  by_cases hm : dg ∈ receivedDatagrams w.m.disp.trace
  · simpa using List.all_eq_true.mp h dg hm
  · rw [List.count_eq_zero_of_not_mem hm]; exact Nat.zero_le _

theorem exchange_of_b (envA envB : CEnv) (wA wB : World) : ∀ (ms : List (Bool × Act)) (asA asB : List Act), Exchange envA envB wA wB asA asB →
    exchangeB envA envB (runActs envA wA asA) (runActs envB wB asB) ms = true → Exchange envA envB wA wB (asA ++ movesOf true ms) (asB ++ movesOf false ms)
  | [], asA, asB, h, _ => by simpa [movesOf] using h
  | (true, x) :: ms, asA, asB, h, hc => by
    simp only [exchangeB, Bool.and_eq_true] at hc
    have := exchange_of_b envA envB wA wB ms (asA ++ [x]) asB
      (.actA x h (usual_of_b hc.1.1.1.1) (sentBy_of_b hc.1.1.1.2) (fromPort_of_b hc.1.1.2) (by rw [runActs_snoc]; exact noneTwice_of_b hc.1.2))
      (by rw [runActs_snoc]; exact hc.2)
    simpa [movesOf] using this
  | (false, x) :: ms, asA, asB, h, hc => by
    simp only [exchangeB, Bool.and_eq_true] at hc
    have := exchange_of_b envA envB wA wB ms asA (asB ++ [x])
      (.actB x h (usual_of_b hc.1.1.1.1) (sentBy_of_b hc.1.1.1.2) (fromPort_of_b hc.1.1.2) (by rw [runActs_snoc]; exact noneTwice_of_b hc.1.2))
      (by rw [runActs_snoc]; exact hc.2)
    simpa [movesOf] using this

/-- `PacketAck` number `n` for packet `id`. -/
def stormAck (n id : UInt8) : Bytes := [0, 0, 0, 0, n, 0, 0xff, 0xff, 0xff, 0xfb, 1, id, 0, 0, 0]

/-- After `pairMoves` nobody enqueues anything any more.  A acknowledges B's acknowledgement, B acknowledges that one, and A receives it. -/
def stormMoves : List (Bool × Act) := pairMoves ++
  [(true, .udp 0 none [dispAddr 0]), (false, .udp 0 none [dispAddr 1]),
   (false, .udp 0 (some ⟨"sim", 13001, stormAck 3 1⟩) [dispAddr 1]), (false, .udp 0 none [dispAddr 1]), (true, .udp 0 none [dispAddr 0]),
   (true, .udp 0 none [dispAddr 0]), (true, .udp 0 (some ⟨"sim", 13000, stormAck 2 3⟩) [dispAddr 0])]

theorem demo_exchange : Exchange demoCEnv demoCEnv demoWorld demoWorld (movesOf true stormMoves) (movesOf false stormMoves) := by
  have := exchange_of_b demoCEnv demoCEnv demoWorld demoWorld stormMoves [] [] .start (by decide +kernel)
  simpa using this

theorem demo_defaults (s : Bool) : Defaults demoCEnv demoCEnv dispHosts (movesOf s stormMoves) := by
  refine ⟨demo_through, fun _ => ⟨rfl, ["Demo"], rfl, by decide⟩, ?_, fun _ _ _ => rfl,
    ⟨ackTemplate, ackTemplate_is, fun tr => ⟨rfl, rfl, rfl, rfl, rfl, [], rfl, .inr rfl⟩⟩, ?_⟩
  · intro r _; simp [dispHosts, Host.isOk]
  · intro e he
    have : e = ⟨demoMessage, false, false⟩ ∨ e = ⟨demoMessage, true, false⟩ := by
      cases s
      · simp [enqueuedIn, movesOf, stormMoves, pairMoves] at he
      · simpa [enqueuedIn, movesOf, stormMoves, pairMoves] using he
    rcases this with rfl | rfl <;> decide

/-- The other hypotheses of `C84_never_at_rest`, and what it says here. -/
theorem demo_storm_state : let a := (runActs demoCEnv demoWorld (movesOf true stormMoves))
    let b := (runActs demoCEnv demoWorld (movesOf false stormMoves))
    (∀ x ∈ sentDatagrams a.m.disp.trace, x.2.length ≤ 10000) ∧ (∀ x ∈ sentDatagrams b.m.disp.trace, x.2.length ≤ 10000) ∧
    (preparedMsgs a.m.disp.trace).length = 3 ∧ (preparedMsgs b.m.disp.trace).length = 2 ∧
    (∃ x ∈ preparedMsgs a.m.disp.trace ++ preparedMsgs b.m.disp.trace, x.2.name = "PacketAck") ∧
    receivedDatagrams a.m.disp.trace = (sentDatagrams b.m.disp.trace).map (·.2) ∧ receivedDatagrams b.m.disp.trace = (sentDatagrams a.m.disp.trace).map (·.2) ∧
    a.m.queue = [] ∧ b.m.queue = [] ∧ a.loops = [.acking] := by decide +kernel

example : hasUnacked (runActs demoCEnv demoWorld (movesOf true stormMoves)).m.disp = true ∨ hasUnacked (runActs demoCEnv demoWorld (movesOf false stormMoves)).m.disp = true := by
  obtain ⟨h1, h2, h3, h4, h5, h6, h7, _⟩ := demo_storm_state
  exact C84_never_at_rest (eqA := true) (eqB := true) (demo_defaults true) (demo_defaults false) demo_exchange h1 h2
    (by rw [show World.init dispHosts true = demoWorld from rfl, h3]; decide) (by rw [show World.init dispHosts true = demoWorld from rfl, h4]; decide) h5
    (by unfold AllArrived; rw [show World.init dispHosts true = demoWorld from rfl, h6]) (by unfold AllArrived; rw [show World.init dispHosts true = demoWorld from rfl, h7])

/-- `C84_subscriber_stops` for the acknowledgements of the same program (there are some), read by a dispatcher whose handler has a subscriber of `PacketAck`. -/
example : (∃ x ∈ preparedMsgs (runActs demoCEnv demoWorld (movesOf true stormMoves)).m.disp.trace, x.2.name = "PacketAck") ∧
    ∀ x ∈ preparedMsgs (runActs demoCEnv demoWorld (movesOf true stormMoves)).m.disp.trace, x.2.name = "PacketAck" →
      ∃ dg, serialize demoCEnv.m.disp.ser x.2 = .ok (some dg) ∧
        ∀ a, pending (receiveCheck { dispEnv with deser := fun _ => ⟨demoRt, dispDict, [], some ["Demo", "PacketAck"], true⟩ } (DState.init dispHosts) 0 dg).2 a =
          pending (DState.init dispHosts) a :=
  ⟨by decide +kernel, C84_subscriber_stops (demo_defaults true).through dispHosts true _ (pair_usual (exchange_pair demo_exchange)).1 (by decide)
    (demo_defaults true).enqueued (by show (preparedMsgs (runActs demoCEnv demoWorld (movesOf true stormMoves)).m.disp.trace).length < 2 ^ 31
                                      rw [demo_storm_state.2.2.1]; decide) ackTemplate ackTemplate_is _ _ 0
    ⟨rfl, rfl, rfl, rfl, rfl, ["Demo", "PacketAck"], rfl, .inl (by decide)⟩ (by intro c hc; cases hc)⟩

/-- A subscriber of `PacketAck` that does nothing stops it: then an acknowledgement, not being reliable, is not acknowledged. -/
example : hasUnacked (receiveCheck { dispEnv with deser := fun _ => ⟨demoRt, dispDict, [], some ["Demo", "PacketAck"], true⟩ } (DState.init dispHosts) 0 pairAck).2 = false ∧
    hasUnacked (receiveCheck dispEnv (DState.init dispHosts) 0 pairAck).2 = true := by decide +kernel

end Pyogp
