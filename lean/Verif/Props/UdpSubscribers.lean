import Verif.Proofs.UdpSubscribers
import Verif.Props.EqSubscribers
import Verif.Props.Circuit

/-!
# C109: the UDP dispatcher and the subscribers of its messages
-/

namespace Pyogp
open Spec

/-- **C109, same program.** With a message handler in place of the oracle, whatever its subscribers do (send messages, change hosts and subscriptions, raise) and whatever the client does to
the subscriptions in between, a dispatcher does in every history what it does with some handler and some registered names in the sense of all the other properties, a handler that never raises a
`KeyError`; and so does every operation return or raise what it does there. -/
theorem C109_same (env : DEnv) (beh : SBehaviour) (fuel : Nat) (hosts : HostRef → Host) (ev : EvState Message) (ops : List SOp) (rs : List OpResult) (st : SubsState)
    (h : runSubs env beh fuel ⟨DState.init hosts, ev⟩ ops = some (rs, st)) :
    ∃ (H : List Ev → Message → Prog) (names : List Ev → List String), (∀ tr m, NeverRaises .keyError (H tr m)) ∧
      st.d = runOps (withNames { env with handler := H } names) (DState.init hosts) (dispatcherOps ops) ∧
      dispatcherResults ops rs = opResults (withNames { env with handler := H } names) (DState.init hosts) (dispatcherOps ops) := by
  obtain ⟨-, o, hn, hr⟩ := runSubs_realised env beh fuel ops _ st rs h
  have := hr o (fun _ _ _ _ => rfl) (fun _ _ _ => rfl)
  simp only [Prod.mk.injEq, Except.ok.injEq] at this
  exact ⟨o.handler, o.names, hn, this.2.symm, this.1.symm⟩

/-! ## Who is called -/

/-- What happens between two moments, at nesting levels below `n`, besides `due` at level `n`. -/
structure Calling (n : Nat) (due : List (Call Message)) (st st' : SubsState) (cs : List (Call Message)) (g gd : List Message) : Prop where
  subs : st'.ev.subs = st.ev.subs
  reg : Registered st'.ev
  calls : st'.ev.calls = st.ev.calls ++ cs
  levels : ∀ c ∈ cs, c.level ≤ n
  own : callsAt n cs = due
  handed : handedMessages st'.d.trace = handedMessages st.d.trace ++ g
  delivered : deliveredMessages st'.d.trace = deliveredMessages st.d.trace ++ gd

def Below (n : Nat) (st st' : SubsState) : Prop :=
  ∃ cs g, Calling n [] st st' cs g [] ∧ (cs.map callData).Perm (callsDue st.ev.subs g)

theorem Calling.refl {st : SubsState} (hr : Registered st.ev) (n : Nat) : Calling n [] st st [] [] [] :=
  ⟨rfl, hr, by simp, by simp, rfl, by simp, by simp⟩

theorem Calling.trans {n : Nat} {d1 d2 : List (Call Message)} {a b c : SubsState} {cs1 cs2 : List (Call Message)} {g1 g2 gd1 gd2 : List Message}
    (h1 : Calling n d1 a b cs1 g1 gd1) (h2 : Calling n d2 b c cs2 g2 gd2) : Calling n (d1 ++ d2) a c (cs1 ++ cs2) (g1 ++ g2) (gd1 ++ gd2) where
  subs := h2.subs.trans h1.subs
  reg := h2.reg
  calls := by rw [h2.calls, h1.calls, List.append_assoc]
  levels := fun c hc => (List.mem_append.mp hc).elim (h1.levels c) (h2.levels c)
  own := by rw [← h1.own, ← h2.own, callsAt, callsAt, callsAt, List.filter_append]
  handed := by rw [h2.handed, h1.handed, List.append_assoc]
  delivered := by rw [h2.delivered, h1.delivered, List.append_assoc]

theorem callsDue_append (subs : String → List Sub) (g1 g2 : List Message) : callsDue subs (g1 ++ g2) = callsDue subs g1 ++ callsDue subs g2 := by
  simp [callsDue]

theorem Below.refl {st : SubsState} (hr : Registered st.ev) (n : Nat) : Below n st st := ⟨[], [], Calling.refl hr n, by simp [callsDue]⟩

theorem Below.trans {n : Nat} {a b c : SubsState} (h1 : Below n a b) (h2 : Below n b c) : Below n a c := by
  obtain ⟨cs1, g1, c1, p1⟩ := h1
  obtain ⟨cs2, g2, c2, p2⟩ := h2
  refine ⟨cs1 ++ cs2, g1 ++ g2, c1.trans c2, ?_⟩
  rw [c1.subs] at p2
  rw [List.map_append, callsDue_append]
  exact p1.append p2

theorem Below.reg {n : Nat} {a b : SubsState} (h : Below n a b) : Registered b.ev := by
  obtain ⟨_, _, c, _⟩ := h
  exact c.reg

/-- Nothing is handed over or called. -/
theorem Below.silent {n : Nat} {st : SubsState} (hr : Registered st.ev) (d : DState) (hh : handedMessages d.trace = handedMessages st.d.trace)
    (hd : deliveredMessages d.trace = deliveredMessages st.d.trace) : Below n st { st with d := d } :=
  ⟨[], [], ⟨rfl, hr, by simp, by simp, rfl, by simp [hh], by simp [hd]⟩, by simp [callsDue]⟩

/-- A way of sending whose calls are all at lower levels. -/
def SendBelow (n : Nat) (send : SendFn) : Prop :=
  ∀ st m r mode x st', Registered st.ev → send st m r mode = (some x, st') → Below n st st'

theorem run_below {n : Nat} {send : SendFn} (hs : SendBelow n send) : ∀ (p : SProg) (st st' : SubsState) (r : Py Unit), SProg.Quiet p → Registered st.ev →
    p.run send st = (some r, st') → r = .ok () ∧ Below n st st'
  | .done, st, st', r, _, hr, h => by cases h; exact ⟨rfl, .refl hr n⟩
  | .raise _, _, _, _, hq, _, _ => hq.elim
  | .send m hr' mode k, st, st', r, hq, hr, h => by
    unfold SProg.run at h
    generalize hy : send st m hr' mode = y at h
    obtain ⟨y, st1⟩ := y
    cases y with
    | none => cases h
    | some x =>
      have h1 := hs st m hr' mode x st1 hr hy
      obtain ⟨e, h2⟩ := run_below hs (k x) st1 st' r (hq x) h1.reg h
      exact ⟨e, h1.trans h2⟩
  | .setHost hr' v k, st, st', r, hq, hr, h => by
    obtain ⟨e, h2⟩ := run_below hs k { st with d := { st.d with hosts := fun x => if x = hr' then v else st.d.hosts x } } st' r hq hr h
    exact ⟨e, (Below.silent (st := st) hr { st.d with hosts := fun x => if x = hr' then v else st.d.hosts x } rfl rfl).trans h2⟩
  | .subscribe _ _ _, _, _, _, hq, _, _ => hq.elim
  | .unsubscribe _ _ _, _, _, _, hq, _, _ => hq.elim
  | .register n' k, st, st', r, hq, hr, h => by
    obtain ⟨a, b, c⟩ := subOps_spec [.register n'] st.ev hr
    obtain ⟨e, h2⟩ := run_below hs k { st with ev := SubOp.apply st.ev (.register n') } st' r hq a h
    refine ⟨e, Below.trans ⟨[], [], ⟨b, a, ?_, by simp, rfl, by simp, by simp⟩, by simp [callsDue]⟩ h2⟩
    rw [List.append_nil]
    exact c

/-- The calls for one message. -/
def dueFor (m : Message) (l : List Sub) : List (String × Nat × Message × List Nat × List (String × Nat)) := l.map (fun s => (m.name, s.handler, m, s.args, s.kwargs))

theorem notify_calling {n : Nat} {send : SendFn} (hs : SendBelow n send) {beh : SBehaviour} (hq : ∀ tr cs, SProg.Quiet (beh tr cs)) (m : Message) :
    ∀ (fuel i : Nat) (st st' : SubsState) (r : Py Unit), Registered st.ev → notifySubs beh send n m fuel i st = (some r, st') →
    r = .ok () ∧ ∃ cs g, Calling n (((st.ev.subs m.name).drop i).map (callOf n m.name m)) st st' cs g [] ∧
      (cs.map callData).Perm (dueFor m ((st.ev.subs m.name).drop i) ++ callsDue st.ev.subs g)
  | 0, _, _, _, _, _, h => by cases h
  | fuel + 1, i, st, st', r, hr, h => by
    unfold notifySubs at h
    split at h
    · rename_i hi
      cases h
      rw [List.drop_eq_nil_of_le (List.getElem?_eq_none_iff.mp hi)]
      exact ⟨rfl, [], [], Calling.refl hr n, by simp [dueFor, callsDue]⟩
    · rename_i s hi
      obtain ⟨hlt, hsi⟩ := List.getElem?_eq_some_iff.mp hi
      simp only at h
      generalize hst0 : ({ st with ev := st.ev.log ⟨n, m.name, s.handler, (m, s.args), s.kwargs⟩ } : SubsState) = st0 at h
      have h0 : Calling n [callOf n m.name m s] st st0 [callOf n m.name m s] [] [] := by
        subst hst0
        exact ⟨rfl, hr, rfl, by simp [callOf], by simp [callsAt, callOf], by simp, by simp⟩
      have hd0 : st.d = st0.d := by subst hst0; rfl
      generalize hy : (beh st.d.trace st0.ev.calls).run send st0 = y at h
      have hy' : (beh st.d.trace (st.ev.log ⟨n, m.name, s.handler, (m, s.args), s.kwargs⟩).calls).run send st0 = y := by
        subst hst0; exact hy
      rw [hy'] at h
      obtain ⟨y, st1⟩ := y
      cases y with
      | none => cases h
      | some x =>
        obtain ⟨rfl, cs1, g1, c1, p1⟩ := run_below hs _ st0 st1 x (hq _ _) h0.reg hy
        simp only at h
        have h01 := h0.trans c1
        obtain ⟨e, cs2, g2, c2, p2⟩ := notify_calling hs hq m fuel (i + 1) st1 st' r c1.reg h
        have hsub : st1.ev.subs = st.ev.subs := h01.subs
        rw [hsub] at c2 p2
        rw [h0.subs] at p1
        have hdrop : (st.ev.subs m.name).drop i = s :: (st.ev.subs m.name).drop (i + 1) := by rw [List.drop_eq_getElem_cons hlt, hsi]
        refine ⟨e, [callOf n m.name m s] ++ cs1 ++ cs2, g1 ++ g2, ?_, ?_⟩
        · have := h01.trans c2
          rw [hdrop]
          simpa using this
        · rw [hdrop, callsDue_append]
          simp only [List.map_append, List.map_cons, dueFor, List.cons_append, List.nil_append]
          refine List.Perm.cons _ ?_
          refine (p1.append p2).trans ?_
          rw [← List.append_assoc, ← List.append_assoc]
          exact List.Perm.append_right _ List.perm_append_comm

theorem handle_calling {n : Nat} {send : SendFn} (hs : SendBelow n send) {beh : SBehaviour} (hq : ∀ tr cs, SProg.Quiet (beh tr cs)) (m : Message)
    (fuel : Nat) (st st' : SubsState) (r : Py Unit) (hr : Registered st.ev) (h : handleSubs beh send fuel n m st = (some r, st')) :
    r = .ok () ∧ ∃ cs g, Calling n ((st.ev.subs m.name).map (callOf n m.name m)) st st' cs g [] ∧
      (cs.map callData).Perm (dueFor m (st.ev.subs m.name) ++ callsDue st.ev.subs g) := by
  have none : st.ev.subs m.name = [] → ∃ cs g, Calling n ((st.ev.subs m.name).map (callOf n m.name m)) st st cs g [] ∧
      (cs.map callData).Perm (dueFor m (st.ev.subs m.name) ++ callsDue st.ev.subs g) := by
    intro he
    rw [he]
    exact ⟨[], [], Calling.refl hr n, by simp [dueFor, callsDue]⟩
  unfold handleSubs at h
  split at h
  · split at h
    · generalize hy : notifySubs beh send n m fuel 0 st = y at h
      obtain ⟨y, st1⟩ := y
      cases y with
      | none => cases h
      | some x =>
        have := notify_calling hs hq m fuel 0 st st1 x hr hy
        rw [List.drop_zero] at this
        obtain ⟨rfl, this⟩ := this
        cases h
        exact ⟨rfl, this⟩
    · rename_i hl
      cases h
      exact ⟨rfl, none (List.length_eq_zero_iff.mp (by omega))⟩
  · rename_i hn
    cases h
    exact ⟨rfl, none (hr _ hn)⟩

theorem transmit_hands (env : DEnv) (st : DState) (m : Message) (r : HostRef) (mode : SendMode) :
    handedMessages (transmit env st m r mode).2.trace = handedMessages st.trace ∧ deliveredMessages (transmit env st m r mode).2.trace = deliveredMessages st.trace := by
  rw [(transmit_trace env st m r mode).1]
  simp only [handedMessages, deliveredMessages, List.filterMap_append, List.filterMap_cons]
  split <;> simp

theorem send_below (env : DEnv) {beh : SBehaviour} (hq : ∀ tr cs, SProg.Quiet (beh tr cs)) (fuel : Nat) : ∀ n, SendBelow n (sendSubs env beh fuel n)
  | 0 => by
    intro st m r mode x st' hr h
    cases h
    exact .refl hr 0
  | n + 1 => by
    intro st m r mode x st' hr h
    unfold sendSubs at h
    split at h
    · cases h; exact .refl hr _
    · split at h
      · generalize hy : handleSubs beh (sendSubs env beh fuel n) fuel n m { st with d := st.d.log (.outgoing m) } = y at h
        obtain ⟨y, st1⟩ := y
        cases y with
        | none => cases h
        | some w =>
          obtain ⟨rfl, cs, g, c, p⟩ := handle_calling (send_below env hq fuel n) hq m fuel { st with d := st.d.log (.outgoing m) } st1 w hr hy
          cases h
          have ht := transmit_hands env st1.d m r mode
          refine ⟨cs, m :: g, ⟨c.subs, c.reg, c.calls, fun x hx => Nat.le_succ_of_le (c.levels x hx), ?_, ?_, ?_⟩, ?_⟩
          · rw [callsAt, List.filter_eq_nil_iff]
            intro x hx
            have := c.levels x hx
            simp only [decide_eq_true_eq]
            omega
          · show handedMessages (transmit env st1.d m r mode).2.trace = _
            rw [ht.1, c.handed]
            simp [DState.log, handedMessages]
          · show deliveredMessages (transmit env st1.d m r mode).2.trace = _
            rw [ht.2, c.delivered]
            simp [DState.log, deliveredMessages]
          · rw [callsDue, List.flatMap_cons]
            exact p
      · cases h
        have ht := transmit_hands env st.d m r mode
        exact Below.silent hr _ ht.1 ht.2

/-- One operation. -/
def OpCalling (n : Nat) (st st' : SubsState) : Prop :=
  ∃ cs g gd, Calling n (callsFor n st.ev.subs gd) st st' cs g gd ∧ (cs.map callData).Perm (callsDue st.ev.subs g)

theorem Below.op {n : Nat} {st st' : SubsState} (h : Below n st st') : OpCalling n st st' := by
  obtain ⟨cs, g, c, p⟩ := h
  exact ⟨cs, g, [], c, p⟩

theorem receive_calling (env : DEnv) {beh : SBehaviour} (hq : ∀ tr cs, SProg.Quiet (beh tr cs)) (fuel : Nat) (st st' : SubsState) (r : HostRef) (dg : Bytes)
    (x : Py (Option Message)) (hr : Registered st.ev) (h : receiveSubs env beh fuel st r dg = (some x, st')) : OpCalling env.depth st st' := by
  have hft := (findCircuit_fields st.d r).2.1
  unfold receiveSubs at h
  split at h
  · simp only at h
    generalize hf : findCircuit st.d r = f at h hft
    obtain ⟨d, c⟩ := f
    simp only at h hft
    generalize hd : deserialize { env.deser d.trace with handled? := some st.ev.names } d.deser dg = ds at h
    obtain ⟨y, ds⟩ := ds
    cases y with
    | error e =>
      cases h
      exact (Below.silent hr _ (by simp [DState.log, hft, handedMessages]) (by simp [DState.log, hft, deliveredMessages])).op
    | ok o =>
      cases o with
      | none =>
        simp only at h
        split at h
        · cases h
          exact (Below.silent hr _ (by simp [DState.log, hft, handedMessages]) (by simp [DState.log, hft, deliveredMessages])).op
        · cases h
          exact (Below.silent hr _ (by simp [DState.log, DState.setCircuit, hft, handedMessages]) (by simp [DState.log, DState.setCircuit, hft, deliveredMessages])).op
      | some m =>
        simp only at h
        split at h
        · cases h
          exact (Below.silent hr _ (by simp [DState.log, hft, handedMessages]) (by simp [DState.log, hft, deliveredMessages])).op
        · generalize hst1 : (({ (({ d with packetsIn := d.packetsIn + 1 } : DState).log (.received (st.d.hosts r).addr dg)) with deser := ds }).setCircuit (st.d.hosts r).addr
            (c.handlePacket m)).log (.parsed (st.d.hosts r).addr m) = st1 at h
          have hh : handedMessages st1.trace = handedMessages st.d.trace ∧ deliveredMessages st1.trace = deliveredMessages st.d.trace := by
            rw [← hst1]
            simp [DState.log, DState.setCircuit, hft, handedMessages, deliveredMessages]
          split at h
          · generalize hy : handleSubs beh (sendSubs env beh fuel env.depth) fuel env.depth m { st with d := st1.log (.delivered m) } = y at h
            obtain ⟨y, st2⟩ := y
            cases y with
            | none => cases h
            | some w =>
              obtain ⟨rfl, cs, g, c, p⟩ := handle_calling (send_below env hq fuel env.depth) hq m fuel { st with d := st1.log (.delivered m) } st2 w hr hy
              cases h
              refine ⟨cs, m :: g, [m], ⟨c.subs, c.reg, c.calls, c.levels, by rw [c.own]; simp [callsFor], ?_, ?_⟩, ?_⟩
              · rw [c.handed]
                simp only [DState.log]
                rw [handedMessages, List.filterMap_append, ← handedMessages, hh.1]
                simp
              · rw [c.delivered]
                simp only [DState.log]
                rw [deliveredMessages, List.filterMap_append, ← deliveredMessages, hh.2]
                simp
              · rw [callsDue, List.flatMap_cons]
                exact p
          · cases h
            exact (Below.silent hr _ hh.1 hh.2).op
  · cases h
    exact (Below.refl hr _).op

theorem ackLoop_below (env : DEnv) {beh : SBehaviour} (hq : ∀ tr cs, SProg.Quiet (beh tr cs)) (fuel : Nat) (hr' : HostRef) : ∀ (ids : List Nat) (n : Nat) (msg : Message)
    (st st' : SubsState) (x : Py (Nat × Message)), Registered st.ev → ackLoopSubs env beh fuel hr' ids n msg st = (some x, st') → Below env.depth st st'
  | [], n, msg, st, st', x, hr, h => by cases h; exact .refl hr _
  | pid :: ids, n, msg, st, st', x, hr, h => by
    unfold ackLoopSubs at h
    simp only at h
    split at h
    · generalize hy : sendSubs env beh fuel env.depth st (addAckBlock (if n = 0 then Message.new "PacketAck" [] else msg) pid) hr' .plain = y at h
      obtain ⟨y, st1⟩ := y
      cases y with
      | none => cases h
      | some w =>
        have h1 := send_below env hq fuel env.depth _ _ _ _ _ _ hr hy
        cases w with
        | error e => cases h; exact h1
        | ok u => exact h1.trans (ackLoop_below env hq fuel hr' ids 0 _ st1 st' x h1.reg h)
    · exact ackLoop_below env hq fuel hr' ids _ _ st st' x hr h

theorem ackCircuit_below (env : DEnv) {beh : SBehaviour} (hq : ∀ tr cs, SProg.Quiet (beh tr cs)) (fuel : Nat) (st st' : SubsState) (a : Addr) (x : Py Unit)
    (hr : Registered st.ev) (h : ackCircuitSubs env beh fuel st a = (some x, st')) : Below env.depth st st' := by
  unfold ackCircuitSubs at h
  split at h
  · cases h; exact .refl hr _
  · rename_i c _
    generalize hy : ackLoopSubs env beh fuel c.host c.acks 0 (Message.new "PacketAck" []) st = y at h
    obtain ⟨y, st1⟩ := y
    cases y with
    | none => cases h
    | some w =>
      have h1 := ackLoop_below env hq fuel c.host c.acks 0 _ st st1 w hr hy
      cases w with
      | error e => cases h; exact h1
      | ok p =>
        obtain ⟨n, msg⟩ := p
        simp only at h
        generalize hz : (if 0 < n then sendSubs env beh fuel env.depth st1 msg c.host .plain else (some (.ok none), st1)) = z at h
        obtain ⟨z, st2⟩ := z
        cases z with
        | none => cases h
        | some v =>
          have h2 : Below env.depth st1 st2 := by
            split at hz
            · exact send_below env hq fuel env.depth _ _ _ _ _ _ h1.reg hz
            · cases hz; exact .refl h1.reg _
          cases v with
          | error e => cases h; exact h1.trans h2
          | ok u =>
            simp only at h
            split at h
            · cases h; exact h1.trans h2
            · cases h; exact (h1.trans h2).trans (Below.silent h2.reg _ rfl rfl)

theorem sendAcks_below (env : DEnv) {beh : SBehaviour} (hq : ∀ tr cs, SProg.Quiet (beh tr cs)) (fuel : Nat) : ∀ (as : List Addr) (st st' : SubsState) (x : Py Unit),
    Registered st.ev → sendAcksSubs env beh fuel as st = (some x, st') → Below env.depth st st'
  | [], st, st', x, hr, h => by cases h; exact .refl hr _
  | a :: as, st, st', x, hr, h => by
    unfold sendAcksSubs at h
    generalize hy : ackCircuitSubs env beh fuel st a = y at h
    obtain ⟨y, st1⟩ := y
    cases y with
    | none => cases h
    | some w =>
      have h1 := ackCircuit_below env hq fuel st st1 a w hr hy
      cases w with
      | error e => cases h; exact h1
      | ok u => exact h1.trans (sendAcks_below env hq fuel as st1 st' x h1.reg h)

theorem op_calling (env : DEnv) {beh : SBehaviour} (hq : ∀ tr cs, SProg.Quiet (beh tr cs)) (fuel : Nat) (st st' : SubsState) (o : Op) (x : OpResult)
    (hr : Registered st.ev) (h : stepSubs env beh fuel st (.op o) = (some x, st')) : OpCalling env.depth st st' := by
  cases o with
  | send m r mode =>
    simp only [stepSubs] at h
    generalize hy : sendSubs env beh fuel env.depth st m r mode = y at h
    obtain ⟨y, st1⟩ := y
    cases y with
    | none => cases h
    | some w => cases h; exact (send_below env hq fuel env.depth _ _ _ _ _ _ hr hy).op
  | recv r dg =>
    simp only [stepSubs] at h
    generalize hy : receiveSubs env beh fuel st r dg = y at h
    obtain ⟨y, st1⟩ := y
    cases y with
    | none => cases h
    | some w => cases h; exact receive_calling env hq fuel _ _ _ _ _ hr hy
  | processAcks order =>
    simp only [stepSubs] at h
    generalize hy : processAcksSubs env beh fuel st order = y at h
    obtain ⟨y, st1⟩ := y
    cases y with
    | none => cases h
    | some w =>
      cases h
      unfold processAcksSubs at hy
      split at hy
      · cases hy; exact (Below.refl hr _).op
      · exact (sendAcks_below env hq fuel order _ _ _ hr hy).op
  | setHost r v => cases h; exact (Below.silent hr (step env st.d (.setHost r v)) rfl rfl).op
  | removeCircuit r => cases h; exact (Below.silent hr _ (by simp [step, DState.log, handedMessages]) (by simp [step, DState.log, deliveredMessages])).op
  | setTrusted a b =>
    cases h
    refine (Below.silent hr _ ?_ ?_).op <;>
    · simp only [step]
      split <;> rfl

/-- **C109, who is called.** If the subscribers return normally and leave subscriptions alone (they may send messages), then in every history, with changes of subscriptions in between: every message that
is handed to the message handler (received, or outgoing if outgoing messages are handled) leads to exactly one call per subscription to its name at that moment, and to no other calls; and the
calls for the messages received are made in the order of the messages and, for each, of the subscriptions. -/
theorem C109_calls (env : DEnv) (beh : SBehaviour) (hq : ∀ tr cs, SProg.Quiet (beh tr cs)) (fuel : Nat) (hosts : HostRef → Host) (ev : EvState Message)
    (h0 : ∀ n, n ∉ ev.names → ev.subs n = []) (ops : List SOp) (rs : List OpResult) (st : SubsState) (h : runSubs env beh fuel ⟨DState.init hosts, ev⟩ ops = some (rs, st)) :
    ∃ handed received : List (List Message), handed.length = ops.length ∧ received.length = ops.length ∧
      handed.flatten = handedMessages st.d.trace ∧ received.flatten = deliveredMessages st.d.trace ∧
      (st.ev.calls.map callData).Perm (ev.calls.map callData ++ dueOver callsDue ev.subs (ops.zip handed)) ∧
      callsAt env.depth st.ev.calls = callsAt env.depth ev.calls ++ dueOver (callsFor env.depth) ev.subs (ops.zip received) ∧
      st.ev.subs = subsAfter ev.subs (ops.filterMap (fun o => match o with | .subs o => some o | .op _ => none)) := by
  have key : ∀ (ops : List SOp) (s s' : SubsState) (rs : List OpResult), Registered s.ev → runSubs env beh fuel s ops = some (rs, s') →
      ∃ handed received : List (List Message), handed.length = ops.length ∧ received.length = ops.length ∧
        handedMessages s'.d.trace = handedMessages s.d.trace ++ handed.flatten ∧ deliveredMessages s'.d.trace = deliveredMessages s.d.trace ++ received.flatten ∧
        (s'.ev.calls.map callData).Perm (s.ev.calls.map callData ++ dueOver callsDue s.ev.subs (ops.zip handed)) ∧
        callsAt env.depth s'.ev.calls = callsAt env.depth s.ev.calls ++ dueOver (callsFor env.depth) s.ev.subs (ops.zip received) ∧
        s'.ev.subs = subsAfter s.ev.subs (ops.filterMap (fun o => match o with | .subs o => some o | .op _ => none)) := by
    intro ops
    induction ops with
    | nil =>
      intro s s' rs _ h
      cases h
      exact ⟨[], [], rfl, rfl, by simp, by simp, by simp [dueOver], by simp [dueOver], rfl⟩
    | cons o ops ih =>
      intro s s' rs hr h
      unfold runSubs at h
      generalize hy : stepSubs env beh fuel s o = y at h
      obtain ⟨y, s1⟩ := y
      cases y with
      | none => cases h
      | some r =>
        simp only at h
        cases hz : runSubs env beh fuel s1 ops with
        | none => rw [hz] at h; cases h
        | some z =>
          obtain ⟨rs', s2⟩ := z
          rw [hz] at h
          cases h
          cases o with
          | subs o =>
            cases hy
            obtain ⟨a, b, c⟩ := subOps_spec [o] s.ev hr
            obtain ⟨hd, rc, l1, l2, e1, e2, e3, e4, e5⟩ := ih { s with ev := o.apply s.ev } s2 rs' a hz
            have b' : (o.apply s.ev).subs = subsAfter s.ev.subs [o] := b
            have c' : (o.apply s.ev).calls = s.ev.calls := c
            refine ⟨[] :: hd, [] :: rc, by simp [l1], by simp [l2], by simpa using e1, by simpa using e2, ?_, ?_, ?_⟩
            · simp only [b', c'] at e3
              exact e3
            · simp only [b', c'] at e4
              exact e4
            · simp only [b'] at e5
              rw [e5]
              cases o <;> rfl
          | op o =>
            obtain ⟨cs, g, gd, c, p⟩ := op_calling env hq fuel s s1 o r hr hy
            obtain ⟨hd, rc, l1, l2, e1, e2, e3, e4, e5⟩ := ih s1 s2 rs' c.reg hz
            refine ⟨g :: hd, gd :: rc, by simp [l1], by simp [l2], ?_, ?_, ?_, ?_, ?_⟩
            · rw [e1, c.handed]; simp
            · rw [e2, c.delivered]; simp
            · rw [c.subs, c.calls, List.map_append] at e3
              refine e3.trans ?_
              simp only [List.zip_cons_cons, dueOver]
              rw [List.append_assoc]
              exact List.Perm.append_left _ (p.append_right _)
            · rw [e4, c.subs, c.calls]
              simp only [List.zip_cons_cons, dueOver]
              rw [callsAt, List.filter_append, ← callsAt, ← callsAt, c.own, List.append_assoc]
            · rw [e5, c.subs]
              rfl
  obtain ⟨hd, rc, l1, l2, e1, e2, e3, e4, e5⟩ := key ops ⟨DState.init hosts, ev⟩ st rs h0 h
  exact ⟨hd, rc, l1, l2, by rw [e1]; rfl, by rw [e2]; rfl, e3, e4, e5⟩

/-! ## Everything returns -/

def Bounded (N : Nat) (st : SubsState) : Prop := Registered st.ev ∧ ∀ n, (st.ev.subs n).length ≤ N

theorem Below.bounded {n N : Nat} {a b : SubsState} (h : Below n a b) (ha : Bounded N a) : Bounded N b := by
  obtain ⟨_, _, c, _⟩ := h
  exact ⟨c.reg, fun k => by rw [c.subs]; exact ha.2 k⟩

def SendReturns (N : Nat) (send : SendFn) : Prop := ∀ st m r mode, Bounded N st → ∃ x st', send st m r mode = (some x, st')

theorem run_returns {n N : Nat} {send : SendFn} (hs : SendBelow n send) (ht : SendReturns N send) : ∀ (p : SProg) (st : SubsState), SProg.Quiet p → Bounded N st →
    ∃ r st', p.run send st = (some r, st')
  | .done, st, _, _ => ⟨_, _, rfl⟩
  | .raise _, _, hq, _ => hq.elim
  | .send m hr mode k, st, hq, hb => by
    obtain ⟨x, st1, h1⟩ := ht st m hr mode hb
    obtain ⟨r, st', h2⟩ := run_returns hs ht (k x) st1 (hq x) ((hs st m hr mode x st1 hb.1 h1).bounded hb)
    exact ⟨r, st', by unfold SProg.run; simp only [h1]; exact h2⟩
  | .setHost hr v k, st, hq, hb => run_returns hs ht k { st with d := { st.d with hosts := fun x => if x = hr then v else st.d.hosts x } } hq hb
  | .subscribe _ _ _, _, hq, _ => hq.elim
  | .unsubscribe _ _ _, _, hq, _ => hq.elim
  | .register n' k, st, hq, hb => by
    obtain ⟨a, b, _⟩ := subOps_spec [.register n'] st.ev hb.1
    refine run_returns hs ht k { st with ev := SubOp.apply st.ev (.register n') } hq ⟨a, fun m => ?_⟩
    have : (SubOp.apply st.ev (.register n')).subs = st.ev.subs := b
    rw [this]
    exact hb.2 m

theorem notify_returns {n N : Nat} {send : SendFn} (hs : SendBelow n send) (ht : SendReturns N send) {beh : SBehaviour} (hq : ∀ tr cs, SProg.Quiet (beh tr cs)) (m : Message) :
    ∀ (fuel i : Nat) (st : SubsState), Bounded N st → N < fuel + i → 0 < fuel → ∃ r st', notifySubs beh send n m fuel i st = (some r, st')
  | 0, _, _, _, _, h => absurd h (Nat.lt_irrefl 0)
  | fuel + 1, i, st, hb, hf, _ => by
    unfold notifySubs
    cases hi : (st.ev.subs m.name)[i]? with
    | none => exact ⟨_, _, rfl⟩
    | some s =>
      have hlt := (List.getElem?_eq_some_iff.mp hi).1
      have hN := hb.2 m.name
      simp only
      have hb0 : Bounded N { st with ev := st.ev.log ⟨n, m.name, s.handler, (m, s.args), s.kwargs⟩ } := hb
      obtain ⟨r, st1, h1⟩ := run_returns hs ht (beh st.d.trace (st.ev.log ⟨n, m.name, s.handler, (m, s.args), s.kwargs⟩).calls) _ (hq _ _) hb0
      obtain ⟨rfl, h2⟩ := run_below hs _ _ st1 r (hq _ _) hb0.1 h1
      simp only [h1]
      exact notify_returns hs ht hq m fuel (i + 1) st1 (h2.bounded hb0) (by omega) (by omega)

theorem handle_returns {n N fuel : Nat} {send : SendFn} (hs : SendBelow n send) (ht : SendReturns N send) {beh : SBehaviour} (hq : ∀ tr cs, SProg.Quiet (beh tr cs))
    (hN : N < fuel) (m : Message) (st : SubsState) (hb : Bounded N st) : ∃ st', handleSubs beh send fuel n m st = (some (.ok ()), st') := by
  have : ∃ r st', handleSubs beh send fuel n m st = (some r, st') := by
    unfold handleSubs
    split
    · split
      · obtain ⟨r, st1, h1⟩ := notify_returns hs ht hq m fuel 0 st hb (by omega) (by omega)
        rw [h1]
        cases r <;> exact ⟨_, _, rfl⟩
      · exact ⟨_, _, rfl⟩
    · exact ⟨_, _, rfl⟩
  obtain ⟨r, st', h⟩ := this
  obtain ⟨rfl, _⟩ := handle_calling hs hq m fuel st st' r hb.1 h
  exact ⟨st', h⟩

theorem send_returns (env : DEnv) {beh : SBehaviour} (hq : ∀ tr cs, SProg.Quiet (beh tr cs)) {N fuel : Nat} (hN : N < fuel) : ∀ n, SendReturns N (sendSubs env beh fuel n)
  | 0 => fun st _ _ _ _ => ⟨_, _, rfl⟩
  | n + 1 => by
    intro st m r mode hb
    unfold sendSubs
    split
    · exact ⟨_, _, rfl⟩
    · split
      · obtain ⟨st1, h1⟩ := handle_returns (send_below env hq fuel n) (send_returns env hq hN n) hq hN m { st with d := st.d.log (.outgoing m) } hb
        simp only [h1]
        exact ⟨_, _, rfl⟩
      · exact ⟨_, _, rfl⟩

theorem ackLoop_returns (env : DEnv) {beh : SBehaviour} (hq : ∀ tr cs, SProg.Quiet (beh tr cs)) {N fuel : Nat} (hN : N < fuel) (hr : HostRef) : ∀ (ids : List Nat) (n : Nat)
    (msg : Message) (st : SubsState), Bounded N st → ∃ x st', ackLoopSubs env beh fuel hr ids n msg st = (some x, st')
  | [], _, _, _, _ => ⟨_, _, rfl⟩
  | pid :: ids, n, msg, st, hb => by
    unfold ackLoopSubs
    simp only
    split
    · obtain ⟨x, st1, h1⟩ := send_returns env hq hN env.depth st (addAckBlock (if n = 0 then Message.new "PacketAck" [] else msg) pid) hr .plain hb
      rw [h1]
      cases x with
      | error e => exact ⟨_, _, rfl⟩
      | ok u => exact ackLoop_returns env hq hN hr ids 0 _ st1 ((send_below env hq fuel env.depth _ _ _ _ _ _ hb.1 h1).bounded hb)
    · exact ackLoop_returns env hq hN hr ids _ _ st hb

theorem sendAcks_returns (env : DEnv) {beh : SBehaviour} (hq : ∀ tr cs, SProg.Quiet (beh tr cs)) {N fuel : Nat} (hN : N < fuel) : ∀ (as : List Addr) (st : SubsState),
    Bounded N st → ∃ x st', sendAcksSubs env beh fuel as st = (some x, st')
  | [], _, _ => ⟨_, _, rfl⟩
  | a :: as, st, hb => by
    have one : ∃ x st', ackCircuitSubs env beh fuel st a = (some x, st') := by
      unfold ackCircuitSubs
      cases st.d.circuits.get? a with
      | none => exact ⟨_, _, rfl⟩
      | some c =>
        simp only
        obtain ⟨x, st1, h1⟩ := ackLoop_returns env hq hN c.host c.acks 0 (Message.new "PacketAck" []) st hb
        rw [h1]
        cases x with
        | error e => exact ⟨_, _, rfl⟩
        | ok p =>
          obtain ⟨n, msg⟩ := p
          have hb1 := (ackLoop_below env hq fuel c.host c.acks 0 _ st st1 _ hb.1 h1).bounded hb
          simp only
          have two : ∃ y st2, (if 0 < n then sendSubs env beh fuel env.depth st1 msg c.host .plain else (some (.ok none), st1)) = (some y, st2) := by
            split
            · exact send_returns env hq hN env.depth st1 msg c.host .plain hb1
            · exact ⟨_, _, rfl⟩
          obtain ⟨y, st2, h2⟩ := two
          rw [h2]
          cases y with
          | error e => exact ⟨_, _, rfl⟩
          | ok u =>
            simp only
            split <;> exact ⟨_, _, rfl⟩
    obtain ⟨x, st1, h1⟩ := one
    unfold sendAcksSubs
    rw [h1]
    cases x with
    | error e => exact ⟨_, _, rfl⟩
    | ok u => exact sendAcks_returns env hq hN as st1 ((ackCircuit_below env hq fuel st st1 a _ hb.1 h1).bounded hb)

theorem op_returns (env : DEnv) {beh : SBehaviour} (hq : ∀ tr cs, SProg.Quiet (beh tr cs)) {N fuel : Nat} (hN : N < fuel) (st : SubsState) (hb : Bounded N st) (o : Op) :
    ∃ x st', stepSubs env beh fuel st (.op o) = (some x, st') := by
  cases o with
  | send m r mode =>
    obtain ⟨x, st1, h1⟩ := send_returns env hq hN env.depth st m r mode hb
    exact ⟨_, _, by simp only [stepSubs, h1]; rfl⟩
  | recv r dg =>
    have : ∃ x st', receiveSubs env beh fuel st r dg = (some x, st') := by
      unfold receiveSubs
      split
      · simp only
        generalize findCircuit st.d r = f
        obtain ⟨d, c⟩ := f
        simp only
        generalize deserialize { env.deser d.trace with handled? := some st.ev.names } d.deser dg = ds
        obtain ⟨y, ds⟩ := ds
        cases y with
        | error e => exact ⟨_, _, rfl⟩
        | ok o =>
          cases o with
          | none =>
            simp only
            split <;> exact ⟨_, _, rfl⟩
          | some m =>
            simp only
            split
            · exact ⟨_, _, rfl⟩
            · split
              · obtain ⟨st1, h1⟩ := handle_returns (send_below env hq fuel env.depth) (send_returns env hq hN env.depth) hq hN m
                  { st with d := ((({ (({ d with packetsIn := d.packetsIn + 1 } : DState).log (.received (st.d.hosts r).addr dg)) with deser := ds }).setCircuit
                    (st.d.hosts r).addr (c.handlePacket m)).log (.parsed (st.d.hosts r).addr m)).log (.delivered m) } hb
                rw [h1]
                exact ⟨_, _, rfl⟩
              · exact ⟨_, _, rfl⟩
      · exact ⟨_, _, rfl⟩
    obtain ⟨x, st1, h1⟩ := this
    exact ⟨_, _, by simp only [stepSubs, h1]; rfl⟩
  | processAcks order =>
    have : ∃ x st', processAcksSubs env beh fuel st order = (some x, st') := by
      unfold processAcksSubs
      split
      · exact ⟨_, _, rfl⟩
      · exact sendAcks_returns env hq hN order st hb
    obtain ⟨x, st1, h1⟩ := this
    exact ⟨_, _, by simp only [stepSubs, h1]; rfl⟩
  | setHost r v => exact ⟨_, _, rfl⟩
  | removeCircuit r => exact ⟨_, _, rfl⟩
  | setTrusted a b => exact ⟨_, _, rfl⟩

theorem subsAfter_length : ∀ (ops : List SubOp) (subs : String → List Sub) (n : String), (subsAfter subs ops n).length ≤ (subs n).length + ops.length
  | [], _, _ => Nat.le_refl _
  | .register m :: ops, subs, n => by
    have := subsAfter_length ops subs n
    simp only [subsAfter, List.length_cons]
    omega
  | .subscribe m s :: ops, subs, n => by
    have := subsAfter_length ops (fun k => if k = m then subs k ++ [s] else subs k) n
    simp only [subsAfter, List.length_cons]
    refine Nat.le_trans this ?_
    split <;> simp <;> omega
  | .unsubscribe m s :: ops, subs, n => by
    have := subsAfter_length ops (fun k => if k = m then (subs k).erase s else subs k) n
    simp only [subsAfter, List.length_cons]
    refine Nat.le_trans this ?_
    have := List.length_erase_le (a := s) (l := subs n)
    split <;> omega

/-- **C109, it returns.** With such subscribers every operation returns: no handler runs forever. -/
theorem C109_returns (env : DEnv) (beh : SBehaviour) (hq : ∀ tr cs, SProg.Quiet (beh tr cs)) (N fuel : Nat) (hfuel : N < fuel) (hosts : HostRef → Host) (ev : EvState Message)
    (h0 : ∀ n, n ∉ ev.names → ev.subs n = []) (ops : List SOp) (hN : ∀ n, (ev.subs n).length + ops.length ≤ N) :
    (runSubs env beh fuel ⟨DState.init hosts, ev⟩ ops).isSome = true := by
  have key : ∀ (ops : List SOp) (s : SubsState), Registered s.ev → (∀ n, (s.ev.subs n).length + ops.length ≤ N) → (runSubs env beh fuel s ops).isSome = true := by
    intro ops
    induction ops with
    | nil => intro s _ _; rfl
    | cons o ops ih =>
      intro s hr hn
      simp only [List.length_cons] at hn
      unfold runSubs
      cases o with
      | subs o =>
        obtain ⟨a, b, _⟩ := subOps_spec [o] s.ev hr
        have := ih { s with ev := o.apply s.ev } a (fun n => by
          have h1 : (o.apply s.ev).subs = subsAfter s.ev.subs [o] := b
          simp only [h1]
          have := subsAfter_length [o] s.ev.subs n
          have := hn n
          simp only [List.length_singleton] at *
          omega)
        simp only [stepSubs, Option.isSome_map]
        exact this
      | op o =>
        have hb : Bounded N s := ⟨hr, fun n => by have := hn n; omega⟩
        obtain ⟨x, s1, h1⟩ := op_returns env hq hfuel s hb o
        obtain ⟨_, _, _, c, _⟩ := op_calling env hq fuel s s1 o x hr h1
        rw [h1]
        simp only [Option.isSome_map]
        exact ih s1 c.reg (fun n => by rw [c.subs]; have := hn n; omega)
  exact key ops _ h0 hN

/-- **C109, consequence.** For example C20 and C21 hold with a message handler and any subscribers: packet ids count up, and what waits for acknowledgement is what was sent reliably and not acknowledged. -/
theorem C109_bookkeeping (env : DEnv) (beh : SBehaviour) (fuel : Nat) (hosts : HostRef → Host) (ev : EvState Message) (ops : List SOp) (rs : List OpResult) (st : SubsState)
    (h : runSubs env beh fuel ⟨DState.init hosts, ev⟩ ops = some (rs, st)) (a : Addr) :
    let tr := circuitHistory a st.d.trace
    outIds tr = List.range' 1 (outIds tr).length ∧ ∀ c, st.d.circuits.get? a = some c → ∀ id, id ∈ c.unacked.keys ↔ Waiting tr id := by
  obtain ⟨H, names, _, e, _⟩ := C109_same env beh fuel hosts ev ops rs st h
  rw [e]
  exact ⟨C20_ids_sequential _ hosts _ a, fun c hc => (C21_unacked_exact _ hosts _ a c hc).1⟩

/-! ## Examples -/

/-- Outgoing messages are handled, too. -/
def udpSubsEnv : DEnv := { dispEnv with handleOutgoing := true, depth := 5 }

/-- Two subscribers to `Demo`, one to `PacketAck`. -/
def udpSubsDemo : EvState Message :=
  { names := ["Demo", "PacketAck"],
    subs := fun n => if n = "Demo" then [⟨1, [10], []⟩, ⟨2, [], []⟩] else if n = "PacketAck" then [⟨3, [], []⟩] else [] }

/-- The first subscriber to `Demo` sends a `PacketAck` to another host. -/
def acknowledging : SBehaviour := fun _ cs =>
  match cs.getLast? with
  | some c => if c.handler = 1 then .send (addAckBlock (Message.new "PacketAck" []) 4) 1 .plain (fun _ => .done) else .done
  | none => .done

/-- A datagram, a change of subscriptions, the datagram again, and acknowledgements. -/
def udpSubsOps : List SOp := [.op (.recv 0 demoDatagram), .subs (.unsubscribe "Demo" ⟨2, [], []⟩), .subs (.subscribe "Demo" ⟨4, [], []⟩), .op (.recv 0 demoDatagram), .op (.processAcks [dispAddr 0])]

/-- The hypotheses of `C109_calls` and `C109_returns`, and what happens: level 5 are the calls for received messages, level 4 those for outgoing ones. -/
example : (∀ tr cs, SProg.Quiet (acknowledging tr cs)) ∧ (∀ n, n ∉ udpSubsDemo.names → udpSubsDemo.subs n = []) ∧
    (runSubs udpSubsEnv acknowledging 10 ⟨DState.init dispHosts, udpSubsDemo⟩ udpSubsOps).map (fun x => x.2.ev.calls.map (fun c => (c.level, c.event, c.handler))) =
      some [(5, "Demo", 1), (4, "PacketAck", 3), (5, "Demo", 2), (5, "Demo", 1), (4, "PacketAck", 3), (5, "Demo", 4), (4, "PacketAck", 3)] := by
  refine ⟨?_, ?_, by decide +kernel⟩
  · intro tr cs
    unfold acknowledging
    split
    · split
      · exact fun _ => trivial
      · trivial
    · trivial
  · intro n hn
    simp only [udpSubsDemo, List.mem_cons, List.not_mem_nil, or_false, not_or] at hn ⊢
    rw [if_neg hn.1, if_neg hn.2]

/-- Handler 1 raises `e`. -/
def raisingSubs (e : Exc) : SBehaviour := fun _ cs =>
  match cs.getLast? with
  | some c => if c.handler = 1 then .raise e else .done
  | none => .done

/-- A `KeyError` of the first subscriber keeps the second from being called and the message is returned; any other exception is raised by `receive_check`, and one of a subscriber to an outgoing message
keeps it from being sent. -/
example : ((runSubs dispEnv (raisingSubs .keyError) 10 ⟨DState.init dispHosts, udpSubsDemo⟩ [.op (.recv 0 demoDatagram)]).map
      (fun x => (x.1.map (fun r => match r with | .received (.ok (some m)) => m.name | _ => ""), x.2.ev.calls.map (·.handler))) = some (["Demo"], [1])) ∧
    ((runSubs dispEnv (raisingSubs (.user 7)) 10 ⟨DState.init dispHosts, udpSubsDemo⟩ [.op (.recv 0 demoDatagram)]).map (·.1) = some [.received (.error (.user 7))]) ∧
    ((runSubs udpSubsEnv (raisingSubs (.user 7)) 10 ⟨DState.init dispHosts, udpSubsDemo⟩ [.op (.send demoMessage 0 .plain)]).map
      (fun x => (x.1, x.2.d.packetsOut)) = some ([.sent (.error (.user 7))], 0)) := by decide +kernel

end Pyogp
