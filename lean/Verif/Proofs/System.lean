import Verif.Spec.System
import Verif.Proofs.Sent

namespace Pyogp
open Spec

/-- What happened on the receiving side. -/
def inEvents (tr : List Ev) : List Ev := tr.filter fun | .received .. | .parsed .. | .delivered .. => true | _ => false

theorem inEvents_append (a b : List Ev) : inEvents (a ++ b) = inEvents a ++ inEvents b := by simp [inEvents]

theorem receivedDatagrams_append (a b : List Ev) : receivedDatagrams (a ++ b) = receivedDatagrams a ++ receivedDatagrams b := by simp [receivedDatagrams]
theorem deliveredMsgs_append (a b : List Ev) : deliveredMsgs (a ++ b) = deliveredMsgs a ++ deliveredMsgs b := by simp [deliveredMsgs]
theorem parsedMsgs_append (a b : List Ev) : parsedMsgs (a ++ b) = parsedMsgs a ++ parsedMsgs b := by simp [parsedMsgs]

theorem receivedDatagrams_in (tr : List Ev) : receivedDatagrams tr = receivedDatagrams (inEvents tr) := by
  induction tr with
  | nil => rfl
  | cons e tr ih =>
    unfold receivedDatagrams inEvents at *
    cases e <;> simp [ih]

theorem deliveredMsgs_in (tr : List Ev) : deliveredMsgs tr = deliveredMsgs (inEvents tr) := by
  induction tr with
  | nil => rfl
  | cons e tr ih =>
    unfold deliveredMsgs inEvents at *
    cases e <;> simp [ih]

theorem parsedMsgs_in (tr : List Ev) : parsedMsgs tr = parsedMsgs (inEvents tr) := by
  induction tr with
  | nil => rfl
  | cons e tr ih =>
    unfold parsedMsgs inEvents at *
    cases e <;> simp [ih]

/-- Sending and acknowledging do not show on the receiving side, and make no circuit trusted. -/
def Deaf (ins : List Ev) (st : DState) : Prop := inEvents st.trace = ins ∧ ∀ a c, st.circuits.get? a = some c → c.trusted = false

theorem deaf_closed (env : DEnv) (ins : List Ev) : AckClosed env (fun _ _ => True) (Deaf ins) := by
  refine { hosts := ?_, outgoing := ?_, transmit := ?_, cleared := ?_ }
  · intro st r v _ h; exact h
  · rintro st m ⟨h1, h2⟩
    exact ⟨by simp only [DState.log, inEvents_append, h1]; simp [inEvents], h2⟩
  · rintro st m r mode ⟨h1, h2⟩
    refine ⟨?_, ?_⟩
    · rw [(transmit_trace env st m r mode).1, inEvents_append, h1]
      split <;> simp [inEvents]
    · intro a c hc
      rw [transmit_get?] at hc
      split at hc
      · cases hc
        rw [prepare_trusted]
        cases hx : st.circuits.get? a with
        | none => rfl
        | some c => exact h2 a c hx
      · exact h2 a c hc
  · rintro st a c ⟨h1, h2⟩ hc
    refine ⟨h1, ?_⟩
    intro b d hd
    simp only [DState.setCircuit, Dict.get?_set] at hd
    split at hd
    · cases hd; exact h2 a c hc
    · exact h2 b d hd

theorem own_deaf (env : DEnv) (st : DState) (op : Op) (ho : Own op) (ht : ∀ a c, st.circuits.get? a = some c → c.trusted = false) :
    Deaf (inEvents st.trace) (step env st op) := by
  have h : Deaf (inEvents st.trace) st := ⟨rfl, ht⟩
  cases op with
  | send m r mode => exact send_preserves (deaf_closed env _).toSendClosed (fun _ _ => Prog.mutates_any _) st m r mode h
  | processAcks order => exact processAcks_preserves (deaf_closed env _) (fun _ _ => Prog.mutates_any _) st order h
  | setHost r v => exact h
  | removeCircuit r =>
    refine ⟨?_, ?_⟩
    · simp only [step, DState.log, inEvents_append]; simp [inEvents]
    · intro a c hc
      simp only [step, DState.log, removeCircuitData] at hc
      split at hc
      · rw [Dict.get?_del] at hc
        split at hc
        · cases hc
        · exact ht a c hc
      · exact ht a c hc
  | recv r dg => exact ho.elim
  | setTrusted a b => exact ho.elim

/-- What one reception does, on the receiving side, without trusted circuits. -/
theorem recv_in (env : DEnv) (st : DState) (r : HostRef) (dg : Bytes) (hne : dg ≠ []) (ht : ∀ a c, st.circuits.get? a = some c → c.trusted = false) :
    (∀ a c, (receiveCheck env st r dg).2.circuits.get? a = some c → c.trusted = false) ∧
    inEvents (receiveCheck env st r dg).2.trace = inEvents st.trace ++ .received (st.hosts r).addr dg ::
      (match (deserialize (env.deser st.trace) st.deser dg).1 with
      | .ok (some m) => .parsed (st.hosts r).addr m :: (if env.handlePackets then [.delivered m] else [])
      | _ => []) := by
  have hlen : 0 < dg.length := List.length_pos_iff.mpr hne
  obtain ⟨_, htr, _, _, _, hde, hg, hc⟩ := findCircuit_fields st r
  have hct : (findCircuit st r).2.trusted = false := by
    rw [hc]
    cases hx : st.circuits.get? (st.hosts r).addr with
    | none => rfl
    | some c => exact ht _ c hx
  have hfind : ∀ s : DState, s.circuits = (findCircuit st r).1.circuits → ∀ a c, s.circuits.get? a = some c → c.trusted = false := by
    intro s hs a c h
    rw [hs, hg] at h
    split at h
    · cases h; exact hct
    · exact ht a c h
  have hset : ∀ (s : DState) (d : Circuit), d.trusted = false → s.circuits = ((findCircuit st r).1.setCircuit (st.hosts r).addr d).circuits →
      ∀ a c, s.circuits.get? a = some c → c.trusted = false := by
    intro s d hd hs a c h
    rw [hs] at h
    simp only [DState.setCircuit, Dict.get?_set] at h
    split at h
    · cases h; exact hd
    · exact hfind _ rfl a c h
  cases hx : (deserialize (env.deser st.trace) st.deser dg).1 with
  | error e =>
    unfold receiveCheck
    simp only [hlen, if_true, htr, hde, hx]
    refine ⟨hfind _ rfl, ?_⟩
    simp only [DState.log, inEvents_append]; simp [inEvents]
  | ok m? =>
    cases m? with
    | none =>
      unfold receiveCheck
      simp only [hlen, if_true, htr, hde, hx]
      split
      · refine ⟨hfind _ rfl, ?_⟩
        simp only [DState.log, inEvents_append]; simp [inEvents]
      · refine ⟨hset _ ((findCircuit st r).2.collectAck _) hct rfl, ?_⟩
        simp only [DState.log, DState.setCircuit, inEvents_append]; simp [inEvents]
    | some m =>
      have hht : ((findCircuit st r).2.handlePacket m).trusted = false := by rw [(handlePacket_fields _ m).2.1, hct]
      unfold receiveCheck
      simp only [hlen, if_true, htr, hde, hx, hct, Bool.false_and, Bool.false_eq_true, if_false]
      split
      · generalize hst2 : DState.log _ (Ev.delivered m) = st2
        have h2 : Deaf (inEvents st.trace ++ [.received (st.hosts r).addr dg, .parsed (st.hosts r).addr m, .delivered m]) st2 := by
          rw [← hst2]
          refine ⟨?_, hset _ _ hht rfl⟩
          simp only [DState.log, DState.setCircuit, inEvents_append]; simp [inEvents]
        have h3 := handler_preserves (deaf_closed env _).toSendClosed (fun _ _ => Prog.mutates_any _) st2.trace m env.depth st2 h2
        split
        · rename_i he; rw [he] at h3; exact ⟨h3.2, h3.1⟩
        · rename_i he; rw [he] at h3; exact ⟨h3.2, h3.1⟩
      · refine ⟨hset _ _ hht rfl, ?_⟩
        simp only [DState.log, DState.setCircuit, inEvents_append]; simp [inEvents]

theorem step_trace_prefix (env : DEnv) (st : DState) (op : Op) : st.trace <+: (step env st op).trace :=
  step_preserves (P := fun s => st.trace <+: s.trace) (ok := fun _ _ => True)
    { hosts := fun _ _ _ _ h => h
      outgoing := fun _ _ h => h.trans (List.prefix_append _ _)
      transmit := fun s m r mode h => by rw [(transmit_trace env s m r mode).1]; exact h.trans (List.prefix_append _ _)
      received := fun s r dg h => by
        simp only [DState.log, (findCircuit_fields s r).2.1]
        exact h.trans (List.prefix_append _ _)
      collect := fun _ _ _ _ h _ _ => h
      parsed := fun _ _ _ _ h _ _ => h.trans (List.prefix_append _ _)
      delivered := fun _ _ h => h.trans (List.prefix_append _ _)
      cleared := fun _ _ _ h _ => h
      remove := fun _ _ h => h.trans (List.prefix_append _ _)
      trust := fun _ _ _ _ h _ => h } (fun _ _ => Prog.mutates_any _) st op (fun _ _ _ => trivial) (List.prefix_refl _)

theorem sentDatagrams_mono {a b : List Ev} (h : a <+: b) {x : Addr × Bytes} (hx : x ∈ sentDatagrams a) : x ∈ sentDatagrams b := by
  obtain ⟨t, rfl⟩ := h
  rw [sentDatagrams_append]
  exact List.mem_append_left _ hx

theorem sent_ne_nil {env : DEnv} {st : DState} (h : SentInv env st) {x : Addr} {dg : Bytes} (hx : (x, dg) ∈ sentDatagrams st.trace) :
    ∃ q, (x, q) ∈ preparedMsgs st.trace ∧ serialize env.ser q = .ok (some dg) := by
  obtain ⟨⟨a', q⟩, hq, hdg⟩ := List.mem_filterMap.mp (h.sent.subset hx)
  unfold datagramOf at hdg
  split at hdg
  · rename_i d hd; cases hdg; exact ⟨q, hq, hd⟩
  · cases hdg

/-- One reception: the address, the datagram, and what the deserializer read it with. -/
structure Reception where
  addr : Addr
  dg : Bytes
  tr : List Ev
  dst : DeserState

/-- What a reception shows on the receiving side. -/
def Reception.events (env : DEnv) (x : Reception) : List Ev :=
  .received x.addr x.dg ::
    (match (deserialize (env.deser x.tr) x.dst x.dg).1 with
    | .ok (some m) => .parsed x.addr m :: (if env.handlePackets then [.delivered m] else [])
    | _ => [])

/-- What holds of one side, `other` being the trace of the other one. -/
structure Side (env : DEnv) (hosts : HostRef → Host) (st : DState) (other : List Ev) : Prop where
  reach : ∃ ops, st = runOps env (DState.init hosts) ops
  noTrust : ∀ a c, st.circuits.get? a = some c → c.trusted = false
  log : ∃ log : List Reception, inEvents st.trace = log.flatMap (·.events env) ∧ ∀ x ∈ log, ∃ y, (y, x.dg) ∈ sentDatagrams other

theorem Side.own {env : DEnv} {hosts : HostRef → Host} {st : DState} {other : List Ev} (h : Side env hosts st other) (op : Op) (ho : Own op) :
    Side env hosts (step env st op) other := by
  obtain ⟨h1, h2⟩ := own_deaf env st op ho h.noTrust
  obtain ⟨ops, rfl⟩ := h.reach
  refine ⟨⟨ops ++ [op], by unfold runOps; rw [List.foldl_append]; rfl⟩, h2, ?_⟩
  rw [h1]
  exact h.log

theorem Side.recv {env : DEnv} {hosts : HostRef → Host} {st : DState} {other : List Ev} (h : Side env hosts st other) (r : HostRef) (x : Addr) (dg : Bytes)
    (hx : (x, dg) ∈ sentDatagrams other) (hne : dg ≠ []) : Side env hosts (step env st (.recv r dg)) other := by
  obtain ⟨h1, h2⟩ := recv_in env st r dg hne h.noTrust
  obtain ⟨log, h3, h4⟩ := h.log
  obtain ⟨ops, hops⟩ := h.reach
  refine ⟨⟨ops ++ [.recv r dg], by rw [hops]; unfold runOps; rw [List.foldl_append]; rfl⟩, h1, log ++ [⟨(st.hosts r).addr, dg, st.trace, st.deser⟩], ?_, ?_⟩
  · rw [show (step env st (.recv r dg)) = (receiveCheck env st r dg).2 from rfl, h2, h3, List.flatMap_append]
    simp only [List.flatMap_cons, List.flatMap_nil, List.append_nil]
    rfl
  · intro y hy
    rcases List.mem_append.mp hy with hy | hy
    · exact h4 y hy
    · rw [List.mem_singleton] at hy
      subst hy
      exact ⟨x, hx⟩

theorem Side.later {env : DEnv} {hosts : HostRef → Host} {st : DState} {other other' : List Ev} (h : Side env hosts st other) (hp : other <+: other') :
    Side env hosts st other' := by
  refine ⟨h.reach, h.noTrust, ?_⟩
  obtain ⟨log, h1, h2⟩ := h.log
  refine ⟨log, h1, ?_⟩
  intro x hx
  obtain ⟨y, hy⟩ := h2 x hx
  exact ⟨y, sentDatagrams_mono hp hy⟩

theorem Side.sentInv {env : DEnv} {hosts : HostRef → Host} {st : DState} {other : List Ev} (h : Side env hosts st other) : SentInv env st := by
  obtain ⟨ops, rfl⟩ := h.reach
  exact reachable_sent env hosts ops

theorem Side.inv {env : DEnv} {hosts : HostRef → Host} {st : DState} {other : List Ev} (h : Side env hosts st other) : Inv st := by
  obtain ⟨ops, rfl⟩ := h.reach
  exact reachable_inv env hosts ops

theorem Side.init (env : DEnv) (hosts : HostRef → Host) (other : List Ev) : Side env hosts (DState.init hosts) other :=
  ⟨⟨[], rfl⟩, (by intro a c h; cases h), [], rfl, (by intro x hx; cases hx)⟩

end Pyogp
