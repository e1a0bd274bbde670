import Verif.Spec.UdpDeferred
import Verif.Proofs.System
import Verif.Props.Deserialize
import Verif.Props.Storm
import Verif.Props.UdpExact

/-!
# C110: deferred parsing does not show to subscribers
-/

namespace Pyogp
open Spec

/-! ## What subscribers do to the message handler -/

/-- Sending leaves the message handler alone. -/
def SendSilent (send : SendFn) : Prop := ∀ st m r mode, ∃ x d, send st m r mode = (some x, ⟨d, st.ev⟩)

theorem run_follows {send : SendFn} (hs : SendSilent send) (fire : String → Message → EvState Message → Option (Py Unit) × EvState Message) : ∀ (p : SProg) (q : EvProg Message)
    (st : SubsState), Follows p q → ∃ d, p.run send st = ((q.run fire st.ev).1, ⟨d, (q.run fire st.ev).2⟩)
  | .done, _, st, h => by cases h; exact ⟨st.d, rfl⟩
  | .raise _, _, st, h => by cases h; exact ⟨st.d, rfl⟩
  | .send m r mode k, q, st, h => by
    obtain ⟨x, d, e⟩ := hs st m r mode
    obtain ⟨d', e'⟩ := run_follows hs fire (k x) q ⟨d, st.ev⟩ (h x)
    refine ⟨d', ?_⟩
    unfold SProg.run
    rw [e]
    exact e'
  | .setHost r v k, q, st, h => run_follows hs fire k q { st with d := { st.d with hosts := fun x => if x = r then v else st.d.hosts x } } h
  | .subscribe n s k, _, st, h => by
    obtain ⟨q', rfl, h⟩ := h
    obtain ⟨d, e⟩ := run_follows hs fire k q' { st with ev := SubOp.apply st.ev (.subscribe n s) } h
    refine ⟨d, ?_⟩
    simp only [SProg.run, EvProg.run]
    rw [e, register_keeps_subs]
    rfl
  | .unsubscribe n s k, _, st, h => by
    obtain ⟨q', rfl, h⟩ := h
    exact run_follows hs fire (k _) (q' _) { st with ev := SubOp.apply st.ev (.unsubscribe n s) } (h _)
  | .register n k, _, st, h => by
    obtain ⟨q', rfl, h⟩ := h
    exact run_follows hs fire k q' { st with ev := SubOp.apply st.ev (.register n) } h

theorem notify_follows {beh : SBehaviour} {B : Behaviour Message} (hb : ∀ tr cs, Follows (beh tr cs) (B cs)) {send : SendFn} (hs : SendSilent send)
    (fire : String → Message → EvState Message → Option (Py Unit) × EvState Message) (level : Nat) (m : Message) : ∀ (fuel i : Nat) (st : SubsState),
    ∃ d, notifySubs beh send level m fuel i st =
      ((notifyLoop B fire level m.name m fuel i st.ev).1, ⟨d, (notifyLoop B fire level m.name m fuel i st.ev).2⟩)
  | 0, _, st => ⟨st.d, rfl⟩
  | fuel + 1, i, st => by
    unfold notifySubs notifyLoop
    cases (st.ev.subs m.name)[i]? with
    | none => exact ⟨st.d, rfl⟩
    | some s =>
      dsimp only
      obtain ⟨d, e⟩ := run_follows hs fire _ _ { st with ev := st.ev.log ⟨level, m.name, s.handler, (m, s.args), s.kwargs⟩ }
        (hb st.d.trace (st.ev.log ⟨level, m.name, s.handler, (m, s.args), s.kwargs⟩).calls)
      rw [e]
      dsimp only
      generalize (B (st.ev.log ⟨level, m.name, s.handler, (m, s.args), s.kwargs⟩).calls).run fire
        (st.ev.log ⟨level, m.name, s.handler, (m, s.args), s.kwargs⟩) = y
      obtain ⟨y, ev⟩ := y
      cases y with
      | none => exact ⟨d, rfl⟩
      | some x =>
        cases x with
        | error e => exact ⟨d, rfl⟩
        | ok u => exact notify_follows hb hs fire level m fuel (i + 1) ⟨d, ev⟩

theorem handle_follows {beh : SBehaviour} {B : Behaviour Message} (hb : ∀ tr cs, Follows (beh tr cs) (B cs)) {send : SendFn} (hs : SendSilent send) (fuel level : Nat) (m : Message)
    (st : SubsState) : ∃ d, handleSubs beh send fuel (level + 1) m st =
      ((handleMessage B fuel (level + 1) m.name m st.ev).1, ⟨d, (handleMessage B fuel (level + 1) m.name m st.ev).2⟩) := by
  unfold handleSubs handleMessage
  by_cases hm : m.name ∈ st.ev.names
  · rw [if_pos hm, if_pos hm]
    by_cases hn : 0 < (st.ev.subs m.name).length
    · obtain ⟨d, e⟩ := notify_follows hb hs (notifyAt B fuel level) (level + 1) m fuel 0 st
      rw [if_pos hn, if_pos hn, notifyAt, e]
      refine ⟨d, ?_⟩
      generalize notifyLoop B (notifyAt B fuel level) (level + 1) m.name m fuel 0 st.ev = y
      obtain ⟨y, ev⟩ := y
      cases y with
      | none => rfl
      | some x =>
        cases x with
        | ok u => rfl
        | error e =>
          by_cases he : e = .keyError
          · subst he; rfl
          · dsimp only
            rw [if_neg he]
            cases e <;> first | rfl | exact absurd rfl he
    · rw [if_neg hn, if_neg hn]
      exact ⟨st.d, rfl⟩
  · rw [if_neg hm, if_neg hm]
    exact ⟨st.d, rfl⟩

/-! ## The operations -/

theorem send_silent (env : DEnv) (ho : env.handleOutgoing = false) (beh : SBehaviour) (fuel : Nat) : ∀ n, SendSilent (sendSubs env beh fuel n)
  | 0 => fun st _ _ _ => ⟨_, st.d, rfl⟩
  | n + 1 => by
    intro st m r mode
    unfold sendSubs
    split
    · exact ⟨_, st.d, rfl⟩
    · rw [if_neg (by rw [ho]; simp)]
      exact ⟨_, _, rfl⟩

theorem ackLoop_silent (env : DEnv) (ho : env.handleOutgoing = false) (beh : SBehaviour) (fuel : Nat) (hr : HostRef) : ∀ (ids : List Nat) (n : Nat) (msg : Message) (st : SubsState),
    ∃ x d, ackLoopSubs env beh fuel hr ids n msg st = (some x, ⟨d, st.ev⟩)
  | [], n, msg, st => ⟨_, st.d, rfl⟩
  | pid :: ids, n, msg, st => by
    unfold ackLoopSubs
    dsimp only
    split
    · obtain ⟨x, d, e⟩ := send_silent env ho beh fuel env.depth st (addAckBlock (if n = 0 then Message.new "PacketAck" [] else msg) pid) hr .plain
      rw [e]
      cases x with
      | error e => exact ⟨_, d, rfl⟩
      | ok u => exact ackLoop_silent env ho beh fuel hr ids 0 _ ⟨d, st.ev⟩
    · exact ackLoop_silent env ho beh fuel hr ids _ _ st

theorem ackCircuit_silent (env : DEnv) (ho : env.handleOutgoing = false) (beh : SBehaviour) (fuel : Nat) (st : SubsState) (a : Addr) :
    ∃ x d, ackCircuitSubs env beh fuel st a = (some x, ⟨d, st.ev⟩) := by
  unfold ackCircuitSubs
  cases st.d.circuits.get? a with
  | none => exact ⟨_, st.d, rfl⟩
  | some c =>
    dsimp only
    obtain ⟨x, d, e⟩ := ackLoop_silent env ho beh fuel c.host c.acks 0 (Message.new "PacketAck" []) st
    rw [e]
    cases x with
    | error e => exact ⟨_, d, rfl⟩
    | ok u =>
      obtain ⟨n, msg⟩ := u
      dsimp only
      by_cases hn : 0 < n
      · simp only [if_pos hn]
        obtain ⟨y, d2, e⟩ := send_silent env ho beh fuel env.depth ⟨d, st.ev⟩ msg c.host .plain
        rw [e]
        cases y with
        | error e => exact ⟨_, d2, rfl⟩
        | ok u =>
          dsimp only
          cases d2.circuits.get? a with
          | none => exact ⟨_, d2, rfl⟩
          | some c => exact ⟨_, _, rfl⟩
      · simp only [if_neg hn]
        cases d.circuits.get? a with
        | none => exact ⟨_, d, rfl⟩
        | some c => exact ⟨_, _, rfl⟩

theorem sendAcks_silent (env : DEnv) (ho : env.handleOutgoing = false) (beh : SBehaviour) (fuel : Nat) : ∀ (as : List Addr) (st : SubsState),
    ∃ x d, sendAcksSubs env beh fuel as st = (some x, ⟨d, st.ev⟩)
  | [], st => ⟨_, st.d, rfl⟩
  | a :: as, st => by
    unfold sendAcksSubs
    obtain ⟨x, d, e⟩ := ackCircuit_silent env ho beh fuel st a
    rw [e]
    cases x with
    | error e => exact ⟨_, d, rfl⟩
    | ok u => exact sendAcks_silent env ho beh fuel as ⟨d, st.ev⟩

/-- Everything but receiving leaves the message handler alone and returns no message. -/
theorem own_silent (env : DEnv) (ho : env.handleOutgoing = false) (beh : SBehaviour) (fuel : Nat) (st : SubsState) (o : Op) (hr : ∀ r dg, o ≠ .recv r dg) :
    ∃ x d, stepSubs env beh fuel st (.op o) = (some x, ⟨d, st.ev⟩) ∧ ∀ m, x ≠ .received (.ok (some m)) := by
  cases o with
  | send m h mode =>
    obtain ⟨x, d, e⟩ := send_silent env ho beh fuel env.depth st m h mode
    exact ⟨.sent x, d, by unfold stepSubs; dsimp only; rw [e]; rfl, by simp⟩
  | recv r dg => exact absurd rfl (hr r dg)
  | processAcks order =>
    have : ∃ x d, processAcksSubs env beh fuel st order = (some x, ⟨d, st.ev⟩) := by
      unfold processAcksSubs
      cases resendAll st.d with
      | error e => exact ⟨_, st.d, rfl⟩
      | ok u => exact sendAcks_silent env ho beh fuel order st
    obtain ⟨x, d, e⟩ := this
    exact ⟨.acks x, d, by unfold stepSubs; dsimp only; rw [e]; rfl, by simp⟩
  | setHost r v => exact ⟨.nothing, _, rfl, by simp⟩
  | removeCircuit r => exact ⟨.nothing, _, rfl, by simp⟩
  | setTrusted a b => exact ⟨.nothing, _, rfl, by simp⟩

/-- No circuit is trusted. -/
def Untrusting (st : DState) : Prop := ∀ a c, st.circuits.get? a = some c → c.trusted = false

theorem step_untrusting (env : DEnv) (beh : SBehaviour) (fuel : Nat) (st st' : SubsState) (o : Op) (ho : ∀ a b, o ≠ .setTrusted a b) (x : OpResult)
    (h : stepSubs env beh fuel st (.op o) = (some x, st')) (ht : Untrusting st.d) : Untrusting st'.d := by
  obtain ⟨-, H, -, hr⟩ := step_realised env beh fuel st st' o x h
  have := hr H (fun _ _ _ _ => rfl) (fun _ _ _ => rfl)
  simp only [Prod.mk.injEq] at this
  rw [← this.2]
  cases o with
  | recv r dg =>
    by_cases hne : dg = []
    · subst hne; exact ht
    · exact (recv_in _ st.d r dg hne ht).1
  | setTrusted a b => exact absurd rfl (ho a b)
  | send m r mode => exact (own_deaf _ st.d (.send m r mode) trivial ht).2
  | processAcks order => exact (own_deaf _ st.d (.processAcks order) trivial ht).2
  | setHost r v => exact (own_deaf _ st.d (.setHost r v) trivial ht).2
  | removeCircuit r => exact (own_deaf _ st.d (.removeCircuit r) trivial ht).2

/-! ## Deserialization -/

/-- What a subscriber gets to see of a datagram: the message handler and the result. -/
def seen (env : DEnv) (B : Behaviour Message) (fuel : Nat) (ev : EvState Message) (x : Py (Option Message)) : Option (Py (Option Message)) × EvState Message :=
  match x with
  | .ok (some m) =>
    if env.handlePackets then
      ((handleMessage B fuel env.depth m.name m ev).1.map (fun y => match y with | .ok _ => .ok (some m) | .error e => .error e), (handleMessage B fuel env.depth m.name m ev).2)
    else (some (.ok (some m)), ev)
  | x => (some x, ev)

theorem seen_some (env : DEnv) (B : Behaviour Message) (fuel : Nat) (ev : EvState Message) (m : Message) : seen env B fuel ev (.ok (some m)) =
    if env.handlePackets then
      ((handleMessage B fuel env.depth m.name m ev).1.map (fun y => match y with | .ok _ => .ok (some m) | .error e => .error e), (handleMessage B fuel env.depth m.name m ev).2)
    else (some (.ok (some m)), ev) := rfl

theorem receive_seen (env : DEnv) (hd : 0 < env.depth) (ho : env.handleOutgoing = false) {beh : SBehaviour} {B : Behaviour Message} (hb : ∀ tr cs, Follows (beh tr cs) (B cs))
    (fuel : Nat) (st : SubsState) (ht : Untrusting st.d) (r : HostRef) (dg : Bytes) (hne : 0 < dg.length) :
    ∃ d, receiveSubs env beh fuel st r dg =
        ((seen env B fuel st.ev (deserialize { env.deser st.d.trace with handled? := some st.ev.names } {} dg).1).1,
          ⟨d, (seen env B fuel st.ev (deserialize { env.deser st.d.trace with handled? := some st.ev.names } {} dg).1).2⟩) ∨
      ((deserialize { env.deser st.d.trace with handled? := some st.ev.names } {} dg).1 = .ok none ∧ ∃ e, receiveSubs env beh fuel st r dg = (some (.error e), ⟨d, st.ev⟩)) := by
  have hft := (findCircuit_fields st.d r).2.1
  have hct : (findCircuit st.d r).2.trusted = false := by
    rw [(findCircuit_fields st.d r).2.2.2.2.2.2.2]
    cases hx : st.d.circuits.get? (st.d.hosts r).addr with
    | none => rfl
    | some c => exact ht _ c hx
  unfold receiveSubs
  rw [if_pos hne]
  dsimp only
  generalize hf : findCircuit st.d r = f at hft hct
  obtain ⟨d, c⟩ := f
  dsimp only at hft hct ⊢
  rw [deserialize_memoryless { env.deser st.d.trace with handled? := some st.ev.names } {} d.deser dg, ← hft]
  generalize deserialize { env.deser d.trace with handled? := some st.ev.names } d.deser dg = y
  obtain ⟨y, ds⟩ := y
  cases y with
  | error e => exact ⟨_, .inl rfl⟩
  | ok o =>
    cases o with
    | none =>
      dsimp only
      cases unpackInt env.ser.rt dg .u32 1 (some .big) with
      | error e => exact ⟨_, .inr ⟨rfl, e, rfl⟩⟩
      | ok pid => exact ⟨_, .inl rfl⟩
    | some m =>
      dsimp only
      rw [if_neg (by rw [hct]; simp)]
      by_cases hp : env.handlePackets = true
      · rw [if_pos hp]
        rw [seen_some, if_pos hp]
        obtain ⟨l, hl⟩ : ∃ l, env.depth = l + 1 := ⟨env.depth - 1, by omega⟩
        rw [hl]
        generalize (DState.setCircuit _ _ _).log (.parsed _ m) = d2
        obtain ⟨d3, e⟩ := handle_follows hb (send_silent env ho beh fuel (l + 1)) fuel l m { st with d := d2.log (.delivered m) }
        rw [e]
        refine ⟨d3, .inl ?_⟩
        dsimp only
        generalize handleMessage B fuel (l + 1) m.name m st.ev = z
        obtain ⟨z, ev⟩ := z
        cases z with
        | none => rfl
        | some z => cases z <;> rfl
      · rw [if_neg hp]
        rw [seen_some, if_neg hp]
        exact ⟨_, .inl rfl⟩

/-- Deferral changes the result only for names that are not registered. -/
theorem deserialize_deferring (D : DeserEnv) (names : List String) (st : DeserState) (dg : Bytes) :
    (deserialize { D with handled? := some names, deferred := true } st dg).1 = (deserialize { D with handled? := some names, deferred := false } st dg).1 ∨
    ((deserialize { D with handled? := some names, deferred := true } st dg).1 = .ok none ∧
      ∀ m, (deserialize { D with handled? := some names, deferred := false } st dg).1 = .ok (some m) → m.name ∉ names) := by
  unfold deserialize
  cases stripAcks dg with
  | error e => exact .inl rfl
  | ok x =>
    obtain ⟨buf, acks⟩ := x
    dsimp only
    cases expandPacket buf with
    | error e => exact .inl rfl
    | ok buf' =>
      dsimp only
      unfold deserializeRest
      have hdt : decodeTemplate { D with handled? := some names, deferred := true } st buf' = decodeTemplate { D with handled? := some names, deferred := false } st buf' := rfl
      rw [hdt]
      generalize decodeTemplate { D with handled? := some names, deferred := false } st buf' = y
      obtain ⟨y, st'⟩ := y
      cases y with
      | error e => exact .inl rfl
      | ok b =>
        cases b with
        | false => exact .inl rfl
        | true =>
          dsimp only
          unfold currentName
          cases hc : st'.currentTemplate with
          | none => exact .inl rfl
          | some t =>
            dsimp only
            rw [ok_bind, ok_bind]
            cases hv : validateUdpMsg D.xml t.name with
            | error e => exact .inl rfl
            | ok a =>
              cases a with
              | false => exact .inl rfl
              | true =>
                rw [ok_bind, ok_bind]
                simp only [Bool.not_true, Bool.false_eq_true, if_false]
                by_cases hn : t.name ∈ names
                · left
                  have h1 : wantsParse { D with handled? := some names, deferred := true } t.name = .ok true := by simp [wantsParse, hn]
                  have h2 : wantsParse { D with handled? := some names, deferred := false } t.name = .ok true := by simp [wantsParse, hn]
                  rw [h1, h2]
                · right
                  have h1 : wantsParse { D with handled? := some names, deferred := true } t.name = .ok false := by simp [wantsParse, hn]
                  have h2 : wantsParse { D with handled? := some names, deferred := false } t.name = .ok true := by simp [wantsParse]
                  rw [h1, h2]
                  refine ⟨rfl, fun m hm => ?_⟩
                  rw [ok_bind, if_pos rfl] at hm
                  have : m.name = t.name := by
                    unfold runDecode at hm
                    split at hm
                    · cases hm
                      rename_i hdd
                      exact decodeData_name hdd
                    all_goals cases hm
                  rw [this]
                  exact hn

/-! ## The theorem -/

/-- How the results of the same operation with and without deferral compare. -/
def SameMessage (names : List String) (x y : OpResult) : Prop :=
  (∀ m, x = .received (.ok (some m)) → y = x) ∧ (∀ m, m.name ∈ names → y = .received (.ok (some m)) → x = y)

theorem SameMessage.refl (names : List String) (x : OpResult) : SameMessage names x x := ⟨fun _ _ => rfl, fun _ _ _ => rfl⟩

theorem handleMessage_names (B : Behaviour Message) (fuel level : Nat) (name : String) (x : Message) (ev : EvState Message) (n : String) (h : n ∈ ev.names) :
    n ∈ (handleMessage B fuel level name x ev).2.names := by
  unfold handleMessage
  split
  · split
    · have := C37_registration_kept B fuel level name x ev n (by simpa [isMessageHandled] using h)
      simp only [isMessageHandled, decide_eq_true_eq] at this
      split
      · rename_i e
        rw [e] at this
        exact this
      · exact this
    · exact h
  · exact h

/-- One datagram, with and without deferral. -/
theorem receive_deferring (env : DEnv) (D : DeserEnv) (hD : ∀ tr, env.deser tr = D) (hd : 0 < env.depth) (ho : env.handleOutgoing = false) {beh : SBehaviour}
    {B : Behaviour Message} (hb : ∀ tr cs, Follows (beh tr cs) (B cs)) (fuel : Nat) (d1 d2 : DState) (ev : EvState Message) (h1 : Untrusting d1) (h2 : Untrusting d2)
    (r : HostRef) (dg : Bytes) : ∃ x y d1' d2' ev', receiveSubs (deferring env true) beh fuel ⟨d1, ev⟩ r dg = (x, ⟨d1', ev'⟩) ∧
      receiveSubs (deferring env false) beh fuel ⟨d2, ev⟩ r dg = (y, ⟨d2', ev'⟩) ∧ (∀ n ∈ ev.names, n ∈ ev'.names) ∧
      ((x = none ∧ y = none) ∨ ∃ x' y', x = some x' ∧ y = some y' ∧ SameMessage ev.names (.received x') (.received y')) := by
  by_cases hne : 0 < dg.length
  · obtain ⟨e1, a1⟩ := receive_seen (deferring env true) hd ho hb fuel ⟨d1, ev⟩ h1 r dg hne
    obtain ⟨e2, a2⟩ := receive_seen (deferring env false) hd ho hb fuel ⟨d2, ev⟩ h2 r dg hne
    have hs : ∀ b x, seen (deferring env b) B fuel ev x = seen env B fuel ev x := fun _ _ => rfl
    have ht : ∀ (b : Bool) (tr : List Ev), ({ (deferring env b).deser tr with handled? := some ev.names } : DeserEnv) = { D with handled? := some ev.names, deferred := b } := by
      intro b tr
      show ({ env.deser tr with handled? := some ev.names, deferred := b } : DeserEnv) = _
      rw [hD]
    simp only [hs, ht] at a1 a2
    have hnames : ∀ x, ∀ n ∈ ev.names, n ∈ (seen env B fuel ev x).2.names := by
      intro x n hn
      unfold seen
      split
      · split
        · exact handleMessage_names B fuel env.depth _ _ ev n hn
        · exact hn
      · exact hn
    have hsome : ∀ x, (∀ m, x ≠ .ok (some m)) → seen env B fuel ev x = (some x, ev) := by
      intro x hx
      unfold seen
      split
      · exact absurd rfl (hx _)
      · rfl
    have key := deserialize_deferring D ev.names {} dg
    generalize (deserialize { D with handled? := some ev.names, deferred := true } {} dg).1 = z1 at a1 key
    generalize (deserialize { D with handled? := some ev.names, deferred := false } {} dg).1 = z2 at a2 key
    rcases a1 with a1 | ⟨rfl, er1, a1⟩
    · rcases a2 with a2 | ⟨rfl, er2, a2⟩
      · rcases key with rfl | ⟨rfl, key⟩
        · refine ⟨_, _, _, _, _, a1, a2, hnames _, ?_⟩
          cases (seen env B fuel ev z1).1 with
          | none => exact .inl ⟨rfl, rfl⟩
          | some x => exact .inr ⟨x, x, rfl, rfl, .refl _ _⟩
        · rw [hsome _ (by simp)] at a1
          by_cases hz : ∃ m, z2 = .ok (some m)
          · obtain ⟨m, rfl⟩ := hz
            have hm : handleMessage B fuel env.depth m.name m ev = (some (.ok ()), ev) := by
              unfold handleMessage
              rw [if_neg (key m rfl)]
            have hsm : seen env B fuel ev (.ok (some m)) = (some (.ok (some m)), ev) := by
              rw [seen_some, hm]
              split <;> rfl
            rw [hsm] at a2
            refine ⟨_, _, _, _, _, a1, a2, fun n hn => hn, .inr ⟨_, _, rfl, rfl, ⟨by simp, fun m' hm' he => ?_⟩⟩⟩
            cases he
            exact absurd hm' (key m rfl)
          · rw [hsome _ (fun m hm => hz ⟨m, hm⟩)] at a2
            refine ⟨_, _, _, _, _, a1, a2, fun n hn => hn, .inr ⟨_, _, rfl, rfl, ⟨by simp, fun m' hm' he => ?_⟩⟩⟩
            simp only [OpResult.received.injEq] at he
            exact absurd ⟨m', he⟩ hz
      · have : z1 = .ok none := by
          rcases key with h | ⟨h, _⟩
          · exact h
          · exact h
        subst this
        rw [hsome _ (by simp)] at a1
        exact ⟨_, _, _, _, _, a1, a2, fun n hn => hn, .inr ⟨_, _, rfl, rfl, ⟨by simp, by simp⟩⟩⟩
    · rcases a2 with a2 | ⟨rfl, er2, a2⟩
      · by_cases hz : ∃ m, z2 = .ok (some m)
        · obtain ⟨m, rfl⟩ := hz
          have hnm : m.name ∉ ev.names := by
            rcases key with h | ⟨_, h⟩
            · cases h
            · exact h m rfl
          have hm : handleMessage B fuel env.depth m.name m ev = (some (.ok ()), ev) := by
            unfold handleMessage
            rw [if_neg hnm]
          have hsm : seen env B fuel ev (.ok (some m)) = (some (.ok (some m)), ev) := by
            rw [seen_some, hm]
            split <;> rfl
          rw [hsm] at a2
          refine ⟨_, _, _, _, _, a1, a2, fun n hn => hn, .inr ⟨_, _, rfl, rfl, ⟨by simp, fun m' hm' he => ?_⟩⟩⟩
          cases he
          exact absurd hm' hnm
        · rw [hsome _ (fun m hm => hz ⟨m, hm⟩)] at a2
          refine ⟨_, _, _, _, _, a1, a2, fun n hn => hn, .inr ⟨_, _, rfl, rfl, ⟨by simp, fun m' hm' he => ?_⟩⟩⟩
          simp only [OpResult.received.injEq] at he
          exact absurd ⟨m', he⟩ hz
      · exact ⟨_, _, _, _, _, a1, a2, fun n hn => hn, .inr ⟨_, _, rfl, rfl, ⟨by simp, by simp⟩⟩⟩
  · refine ⟨_, _, d1, d2, ev, ?_, ?_, fun n hn => hn, .inr ⟨.ok none, .ok none, rfl, rfl, .refl _ _⟩⟩ <;>
    · unfold receiveSubs
      rw [if_neg hne]

theorem apply_names (o : SubOp) (ev : EvState Message) (n : String) (h : n ∈ ev.names) : n ∈ (o.apply ev).names := by
  have hreg : ∀ k, n ∈ (Pyogp.register ev k).names := by
    intro k
    unfold Pyogp.register
    split
    · exact h
    · exact List.mem_append_left _ h
  cases o with
  | register k => exact hreg k
  | subscribe k s => exact hreg k
  | «unsubscribe» k s => exact h

theorem SameMessage.mono {names names' : List String} (h : ∀ n ∈ names, n ∈ names') {x y : OpResult} (hs : SameMessage names' x y) : SameMessage names x y :=
  ⟨hs.1, fun m hm he => hs.2 m (h _ hm) he⟩

theorem runs_deferring (env : DEnv) (D : DeserEnv) (hD : ∀ tr, env.deser tr = D) (hd : 0 < env.depth) (ho : env.handleOutgoing = false) {beh : SBehaviour}
    {B : Behaviour Message} (hb : ∀ tr cs, Follows (beh tr cs) (B cs)) (fuel : Nat) : ∀ (ops : List SOp), NoTrust ops → ∀ (d1 d2 : DState) (ev : EvState Message),
    Untrusting d1 → Untrusting d2 →
    (runSubs (deferring env true) beh fuel ⟨d1, ev⟩ ops = none ∧ runSubs (deferring env false) beh fuel ⟨d2, ev⟩ ops = none) ∨
    ∃ rs1 rs2 d1' d2' ev', runSubs (deferring env true) beh fuel ⟨d1, ev⟩ ops = some (rs1, ⟨d1', ev'⟩) ∧
      runSubs (deferring env false) beh fuel ⟨d2, ev⟩ ops = some (rs2, ⟨d2', ev'⟩) ∧ List.Forall₂ (SameMessage ev.names) rs1 rs2
  | [], _, d1, d2, ev, _, _ => .inr ⟨_, _, _, _, _, rfl, rfl, .nil⟩
  | o :: ops, hn, d1, d2, ev, h1, h2 => by
    have hn' : NoTrust ops := fun a b hm => hn a b (List.mem_cons_of_mem _ hm)
    have step : ∃ x y d1' d2' ev', stepSubs (deferring env true) beh fuel ⟨d1, ev⟩ o = (x, ⟨d1', ev'⟩) ∧
        stepSubs (deferring env false) beh fuel ⟨d2, ev⟩ o = (y, ⟨d2', ev'⟩) ∧ (∀ n ∈ ev.names, n ∈ ev'.names) ∧
        ((x = none ∧ y = none) ∨ ∃ x' y', x = some x' ∧ y = some y' ∧ SameMessage ev.names x' y' ∧ Untrusting d1' ∧ Untrusting d2') := by
      cases o with
      | subs o =>
        exact ⟨_, _, _, _, _, rfl, rfl, fun n h => apply_names o ev n h, .inr ⟨_, _, rfl, rfl, .refl _ _, h1, h2⟩⟩
      | op o =>
        have ht : ∀ a b, o ≠ .setTrusted a b := fun a b he => hn a b (by rw [he]; exact List.mem_cons_self)
        by_cases hr : ∃ r dg, o = .recv r dg
        · obtain ⟨r, dg, rfl⟩ := hr
          obtain ⟨x, y, d1', d2', ev', e1, e2, hk, hx⟩ := receive_deferring env D hD hd ho hb fuel d1 d2 ev h1 h2 r dg
          have s1 : stepSubs (deferring env true) beh fuel ⟨d1, ev⟩ (.op (.recv r dg)) = (x.map .received, ⟨d1', ev'⟩) := by
            unfold stepSubs; dsimp only; rw [e1]
          have s2 : stepSubs (deferring env false) beh fuel ⟨d2, ev⟩ (.op (.recv r dg)) = (y.map .received, ⟨d2', ev'⟩) := by
            unfold stepSubs; dsimp only; rw [e2]
          refine ⟨_, _, _, _, _, s1, s2, hk, ?_⟩
          rcases hx with ⟨rfl, rfl⟩ | ⟨x', y', rfl, rfl, hs⟩
          · exact .inl ⟨rfl, rfl⟩
          · exact .inr ⟨_, _, rfl, rfl, hs, step_untrusting _ _ _ _ _ _ ht _ s1 h1, step_untrusting _ _ _ _ _ _ ht _ s2 h2⟩
        · have hr' : ∀ r dg, o ≠ .recv r dg := fun r dg he => hr ⟨r, dg, he⟩
          obtain ⟨x, d1', s1, m1⟩ := own_silent (deferring env true) ho beh fuel ⟨d1, ev⟩ o hr'
          obtain ⟨y, d2', s2, m2⟩ := own_silent (deferring env false) ho beh fuel ⟨d2, ev⟩ o hr'
          exact ⟨_, _, _, _, _, s1, s2, fun n h => h, .inr ⟨x, y, rfl, rfl, ⟨fun m he => absurd he (m1 m), fun m _ he => absurd he (m2 m)⟩,
            step_untrusting _ _ _ _ _ _ ht _ s1 h1, step_untrusting _ _ _ _ _ _ ht _ s2 h2⟩⟩
    obtain ⟨x, y, d1', d2', ev', e1, e2, hk, hx⟩ := step
    unfold runSubs
    rw [e1, e2]
    rcases hx with ⟨rfl, rfl⟩ | ⟨x', y', rfl, rfl, hs, u1, u2⟩
    · exact .inl ⟨rfl, rfl⟩
    · dsimp only
      rcases runs_deferring env D hD hd ho hb fuel ops hn' d1' d2' ev' u1 u2 with ⟨n1, n2⟩ | ⟨rs1, rs2, d1'', d2'', ev'', n1, n2, hf⟩
      · rw [n1, n2]; exact .inl ⟨rfl, rfl⟩
      · rw [n1, n2]
        exact .inr ⟨_, _, _, _, _, rfl, rfl, .cons hs (hf.imp (fun _ _ h => h.mono hk))⟩

/-- **C110, same calls.** Deferred parsing (the default) does not show to subscribers: in every history, with whatever datagrams (malformed ones, too) and whatever changes of subscriptions, the
subscribers are called with the same messages in the same order and all subscriptions come out the same as when every datagram is parsed.  (Unless outgoing messages are handled or a circuit is declared
trusted.  Subscribers may send messages, but what they do to subscriptions does not depend on what becomes of these.) -/
theorem C110_same_calls (env : DEnv) (D : DeserEnv) (hD : ∀ tr, env.deser tr = D) (hd : 0 < env.depth) (ho : env.handleOutgoing = false) (beh : SBehaviour)
    (B : Behaviour Message) (hb : ∀ tr cs, Follows (beh tr cs) (B cs)) (fuel : Nat) (hosts : HostRef → Host) (ev : EvState Message) (ops : List SOp) (hn : NoTrust ops) :
    (runSubs (deferring env true) beh fuel ⟨DState.init hosts, ev⟩ ops).map (fun x => x.2.ev) =
      (runSubs (deferring env false) beh fuel ⟨DState.init hosts, ev⟩ ops).map (fun x => x.2.ev) := by
  have h0 : Untrusting (DState.init hosts) := by intro a c h; cases h
  rcases runs_deferring env D hD hd ho hb fuel ops hn _ _ ev h0 h0 with ⟨n1, n2⟩ | ⟨rs1, rs2, d1, d2, ev', n1, n2, _⟩
  · rw [n1, n2]
  · rw [n1, n2]; rfl

/-- **C110, same messages.** What `receive_check` returns as a message with deferred parsing it returns without it, and what it returns without it, it returns with deferred parsing if the name of the
message is registered from the start. -/
theorem C110_same_messages (env : DEnv) (D : DeserEnv) (hD : ∀ tr, env.deser tr = D) (hd : 0 < env.depth) (ho : env.handleOutgoing = false) (beh : SBehaviour)
    (B : Behaviour Message) (hb : ∀ tr cs, Follows (beh tr cs) (B cs)) (fuel : Nat) (hosts : HostRef → Host) (ev : EvState Message) (ops : List SOp) (hn : NoTrust ops)
    (rs1 rs2 : List OpResult) (st1 st2 : SubsState) (h1 : runSubs (deferring env true) beh fuel ⟨DState.init hosts, ev⟩ ops = some (rs1, st1))
    (h2 : runSubs (deferring env false) beh fuel ⟨DState.init hosts, ev⟩ ops = some (rs2, st2)) :
    List.Forall₂ (fun r1 r2 => (∀ m, r1 = .received (.ok (some m)) → r2 = r1) ∧ ∀ m, m.name ∈ ev.names → r2 = .received (.ok (some m)) → r1 = r2) rs1 rs2 := by
  have h0 : Untrusting (DState.init hosts) := by intro a c h; cases h
  rcases runs_deferring env D hD hd ho hb fuel ops hn _ _ ev h0 h0 with ⟨n1, n2⟩ | ⟨rs1', rs2', d1, d2, ev', n1, n2, hf⟩
  · rw [n1] at h1; cases h1
  · rw [n1] at h1; rw [n2] at h2
    cases h1; cases h2
    exact hf

/-! ## An example -/

/-- One subscriber to `Demo`, which sends a message and then, if it has not been called before, subscribes another handler to `PacketAck`. -/
def curious : SBehaviour := fun _ cs =>
  .send demoMessage 1 .plain (fun _ => if cs.length = 1 then .subscribe "PacketAck" ⟨8, [], []⟩ .done else .done)

def curiousEv : Behaviour Message := fun cs => if cs.length = 1 then .register "PacketAck" (.subscribe "PacketAck" ⟨8, [], []⟩ .done) else .done

/-- A `PacketAck` that breaks off after the number of the message, and a good one. -/
def brokenAck : Bytes := [0, 0, 0, 0, 3, 0, 0xff, 0xff, 0xff, 0xfb]
def goodAck : Bytes := brokenAck ++ [1, 1, 0, 0, 0]

/-- The hypotheses of C110 are met, and what happens: a malformed `PacketAck` is skipped with deferred parsing as long as nobody has subscribed to it, and raises an exception without; the calls are the same. -/
example : (∀ tr, dispEnv.deser tr = ⟨demoRt, dispDict, [], some ["Demo"], true⟩) ∧ (∀ tr cs, Follows (curious tr cs) (curiousEv cs)) ∧
    NoTrust [.op (.recv 0 brokenAck), .op (.recv 0 demoDatagram), .op (.recv 0 brokenAck), .op (.recv 0 goodAck)] ∧
    (∀ b, (runSubs (deferring dispEnv b) curious 10 ⟨DState.init dispHosts, { names := ["Demo"], subs := fun n => if n = "Demo" then [⟨1, [], []⟩] else [] }⟩
      [.op (.recv 0 brokenAck), .op (.recv 0 demoDatagram), .op (.recv 0 brokenAck), .op (.recv 0 goodAck)]).map (fun x =>
        (x.1.map (fun r => match r with | .received (.ok (some _)) => 2 | .received (.ok none) => 1 | _ => 0), x.2.ev.calls.map (·.handler), x.2.ev.names)) =
      some (if b then [1, 2, 0, 2] else [0, 2, 0, 2], [1, 8], ["Demo", "PacketAck"])) := by
  refine ⟨fun _ => rfl, fun tr cs r => ?_, ?_, by decide +kernel⟩
  · dsimp only
    unfold curiousEv
    split
    · exact ⟨_, rfl, rfl⟩
    · rfl
  · intro a b h
    simp at h

end Pyogp
