import Verif.Proofs.BothRoads
import Verif.Props.UdpSubscribers
import Verif.Props.UdpExact

/-!
# C111: one message handler for both roads
-/

namespace Pyogp
open Spec

/-- **C111, the event queue.** Whatever the subscribers do (send messages, change hosts and subscriptions, raise) and whatever comes over UDP meanwhile, the event queue of a manager posts and hands over what
an event queue alone does with some handler in the sense of C38 and C39, one that never raises a `KeyError`, given the same replies. -/
theorem C111_event_queue (env : DEnv) (d : TemplateDict) (beh : SBehaviour) (fuel : Nat) (udp : SubsState) (ops : List BOp) (rs : List OpResult) (st : BothState)
    (h : runBoth env d beh fuel { udp := udp } ops = some (rs, st)) :
    ∃ hd : EqHandler, (∀ l, hd l ≠ .error .keyError) ∧ st.eq = eqAlone d hd ops ∧
      st.results = (List.range st.eq.delivered.length).map (fun k => hd (st.eq.delivered.take (k + 1))) := by
  obtain ⟨-, h2, h3, h4⟩ := runBoth_eq env d beh fuel ops _ st rs h rfl
  refine ⟨recorded st.results, fun l => ?_, h3 _ List.prefix_rfl, ?_⟩
  · unfold recorded
    cases hk : st.results[l.length - 1]? with
    | none => simp
    | some r => exact h4 (by simp) r (List.mem_of_getElem? hk)
  · rw [← h2]
    apply List.ext_getElem
    · simp
    · intro k hk _
      simp only [List.getElem_map, List.getElem_range, recorded, List.length_take]
      rw [show min (k + 1) st.eq.delivered.length - 1 = k by omega, List.getElem?_eq_getElem hk]
      rfl

/-- **C111, the dispatcher.** And the dispatcher does, and every operation returns or raises, what it does with some handler and some registered names in the sense of all the other properties, if with every
poll some messages are sent and host objects changed (by the subscribers of the events). -/
theorem C111_dispatcher (env : DEnv) (d : TemplateDict) (beh : SBehaviour) (fuel : Nat) (hosts : HostRef → Host) (ev : EvState Message) (ops : List BOp) (rs : List OpResult) (st : BothState)
    (h : runBoth env d beh fuel { udp := ⟨DState.init hosts, ev⟩ } ops = some (rs, st)) :
    ∃ (H : List Ev → Message → Prog) (names : List Ev → List String) (extra : List (List Op)), (∀ tr m, NeverRaises .keyError (H tr m)) ∧
      extra.length = ops.length ∧ (∀ l ∈ extra, ∀ o ∈ l, IsSending o) ∧
      (rs, st.udp.d) = managerRun (withNames { env with handler := H } names) (DState.init hosts) (ops.zip extra) := by
  obtain ⟨extra, hl, hs, -, o, hn, hr⟩ := runBoth_realised env d beh fuel ops _ st rs h
  have := hr o (fun _ _ _ _ => rfl) (fun _ _ _ => rfl)
  simp only [Prod.mk.injEq, Except.ok.injEq] at this
  exact ⟨o.handler, o.names, extra, hn, hl, hs, by rw [← this.1, ← this.2]; rfl⟩

theorem managerRun_runOps (env : DEnv) : ∀ (l : List (BOp × List Op)) (st : DState), ∃ ops, (managerRun env st l).2 = runOps env st ops
  | [], st => ⟨[], rfl⟩
  | (.udp (.op o), _) :: l, st => by
    obtain ⟨ops, h⟩ := managerRun_runOps env l (step env st o)
    exact ⟨o :: ops, h⟩
  | (.udp (.subs _), _) :: l, st => managerRun_runOps env l st
  | (.poll _, acts) :: l, st => by
    obtain ⟨ops, h⟩ := managerRun_runOps env l (runOps env st acts)
    exact ⟨acts ++ ops, h.trans (by simp only [runOps, List.foldl_append])⟩

/-- **C111, consequence.** For example C20 and C21 hold for a manager, whatever subscribers of either road send: packet ids count up, and what waits for acknowledgement is what was sent reliably and not
acknowledged. -/
theorem C111_bookkeeping (env : DEnv) (d : TemplateDict) (beh : SBehaviour) (fuel : Nat) (hosts : HostRef → Host) (ev : EvState Message) (ops : List BOp) (rs : List OpResult) (st : BothState)
    (h : runBoth env d beh fuel { udp := ⟨DState.init hosts, ev⟩ } ops = some (rs, st)) (a : Addr) :
    let tr := circuitHistory a st.udp.d.trace
    outIds tr = List.range' 1 (outIds tr).length ∧ ∀ c, st.udp.d.circuits.get? a = some c → ∀ id, id ∈ c.unacked.keys ↔ Waiting tr id := by
  obtain ⟨H, names, extra, _, _, _, e⟩ := C111_dispatcher env d beh fuel hosts ev ops rs st h
  obtain ⟨ops', e'⟩ := managerRun_runOps (withNames { env with handler := H } names) (ops.zip extra) (DState.init hosts)
  have e2 : st.udp.d = _ := (congrArg Prod.snd e).trans e'
  rw [e2]
  exact ⟨C20_ids_sequential _ hosts _ a, fun c hc => (C21_unacked_exact _ hosts _ a c hc).1⟩

/-! ## Who is called -/

theorem callsFor_append (n : Nat) (subs : String → List Sub) (g1 g2 : List Message) : callsFor n subs (g1 ++ g2) = callsFor n subs g1 ++ callsFor n subs g2 := by
  simp [callsFor]

theorem deliverBoth_calling (env : DEnv) {beh : SBehaviour} (hq : ∀ tr cs, SProg.Quiet (beh tr cs)) (fuel : Nat) : ∀ (ms : List Message) (st st' : BothState), Registered st.udp.ev →
    deliverBoth env beh fuel ms st = some st' →
    st'.eq = { st.eq with delivered := st.eq.delivered ++ ms } ∧
      ∃ cs g, Calling env.depth (callsFor env.depth st.udp.ev.subs ms) st.udp st'.udp cs g [] ∧ (cs.map callData).Perm (callsDue st.udp.ev.subs (ms ++ g))
  | [], st, st', hr, h => by
    cases h
    exact ⟨by simp, [], [], Calling.refl hr _, by simp [callsDue]⟩
  | m :: l, st, st', hr, h => by
    unfold deliverBoth at h
    generalize hy : handleSubs beh (sendSubs env beh fuel env.depth) fuel env.depth m st.udp = y at h
    obtain ⟨y, udp⟩ := y
    cases y with
    | none => cases h
    | some r =>
      obtain ⟨rfl, cs1, g1, c1, p1⟩ := handle_calling (send_below env hq fuel env.depth) hq m fuel st.udp udp r hr hy
      simp only at h
      obtain ⟨e, cs2, g2, c2, p2⟩ := deliverBoth_calling env hq fuel l _ st' c1.reg h
      refine ⟨?_, cs1 ++ cs2, g1 ++ g2, ?_, ?_⟩
      · rw [e]
        simp
      · have := c1.trans c2
        simp only [c1.subs] at this
        exact this
      · simp only [c1.subs] at p2
        rw [List.map_append]
        refine (p1.append p2).trans ?_
        have hc : callsDue st.udp.ev.subs (m :: l ++ (g1 ++ g2)) =
            dueFor m (st.udp.ev.subs m.name) ++ (callsDue st.udp.ev.subs l ++ callsDue st.udp.ev.subs g1 ++ callsDue st.udp.ev.subs g2) := by
          rw [← callsDue_append, ← callsDue_append, List.cons_append, callsDue, List.flatMap_cons, List.append_assoc]
          rfl
        rw [hc, callsDue_append, List.append_assoc]
        refine List.Perm.append_left _ ?_
        rw [← List.append_assoc]
        exact List.Perm.append_right _ List.perm_append_comm

theorem deliverAll_quiet : ∀ (ms done : List Message), deliverAll (fun _ => (.ok () : Py Unit)) ms done = done ++ ms
  | [], done => by simp [deliverAll]
  | m :: l, done => by simp only [deliverAll, deliverAll_quiet l, List.append_assoc, List.singleton_append]

/-- **C111, who is called.** If the subscribers return normally and leave subscriptions alone (they may send messages), then in every history of a manager: every message handed to the message handler,
whether by a datagram, by an event or because it is sent (if outgoing messages are handled), leads to exactly one call per subscription to its name at that moment, and to no other calls; the calls for the
messages received, by datagram or event, are made in the order in which they came and, for each, in the order of the subscriptions; and the events handed over are those of C39, whatever
comes over UDP. -/
theorem C111_calls (env : DEnv) (d : TemplateDict) (beh : SBehaviour) (hq : ∀ tr cs, SProg.Quiet (beh tr cs)) (fuel : Nat) (hosts : HostRef → Host) (ev : EvState Message)
    (h0 : ∀ n, n ∉ ev.names → ev.subs n = []) (ops : List BOp) (rs : List OpResult) (st : BothState)
    (h : runBoth env d beh fuel { udp := ⟨DState.init hosts, ev⟩ } ops = some (rs, st)) :
    ∃ handed received : List (List Message), handed.length = ops.length ∧ received.length = ops.length ∧
      handed.flatten.Perm (handedMessages st.udp.d.trace ++ st.eq.delivered) ∧
      atUdp (ops.zip received) = deliveredMessages st.udp.d.trace ∧ atPolls (ops.zip received) = st.eq.delivered ∧
      st.eq = eqAlone d (fun _ => .ok ()) ops ∧
      (st.udp.ev.calls.map callData).Perm (ev.calls.map callData ++ dueAlong callsDue ev.subs (ops.zip handed)) ∧
      callsAt env.depth st.udp.ev.calls = callsAt env.depth ev.calls ++ dueAlong (callsFor env.depth) ev.subs (ops.zip received) ∧
      st.udp.ev.subs = subsAfter ev.subs (changesOf ops) := by
  have key : ∀ (ops : List BOp) (s s' : BothState) (rs : List OpResult), Registered s.udp.ev → runBoth env d beh fuel s ops = some (rs, s') →
      ∃ handed received : List (List Message), handed.length = ops.length ∧ received.length = ops.length ∧
        (handedMessages s'.udp.d.trace ++ s'.eq.delivered).Perm (handedMessages s.udp.d.trace ++ s.eq.delivered ++ handed.flatten) ∧
        deliveredMessages s'.udp.d.trace = deliveredMessages s.udp.d.trace ++ atUdp (ops.zip received) ∧
        s'.eq.delivered = s.eq.delivered ++ atPolls (ops.zip received) ∧
        s'.eq = (pollsOf ops).foldl (eqPoll d (fun _ => .ok ())) s.eq ∧
        (s'.udp.ev.calls.map callData).Perm (s.udp.ev.calls.map callData ++ dueAlong callsDue s.udp.ev.subs (ops.zip handed)) ∧
        callsAt env.depth s'.udp.ev.calls = callsAt env.depth s.udp.ev.calls ++ dueAlong (callsFor env.depth) s.udp.ev.subs (ops.zip received) ∧
        s'.udp.ev.subs = subsAfter s.udp.ev.subs (changesOf ops) := by
    intro ops
    induction ops with
    | nil =>
      intro s s' rs _ h
      cases h
      exact ⟨[], [], rfl, rfl, by simp, by simp [atUdp], by simp [atPolls], rfl, by simp [dueAlong], by simp [dueAlong], rfl⟩
    | cons o ops ih =>
      intro s s' rs hr h
      unfold runBoth at h
      generalize hy : stepBoth env d beh fuel s o = y at h
      cases y with
      | none => cases h
      | some y =>
        obtain ⟨r, s1⟩ := y
        simp only at h
        cases hz : runBoth env d beh fuel s1 ops with
        | none => rw [hz] at h; cases h
        | some z =>
          obtain ⟨rs', s2⟩ := z
          rw [hz] at h
          cases h
          cases o with
          | udp o =>
            simp only [stepBoth] at hy
            generalize hw : stepSubs env beh fuel s.udp o = w at hy
            obtain ⟨w, udp⟩ := w
            cases w with
            | none => cases hy
            | some w =>
              cases hy
              cases o with
              | subs o =>
                cases hw
                obtain ⟨a, b, c⟩ := subOps_spec [o] s.udp.ev hr
                obtain ⟨hd, rc, l1, l2, e1, e2, e3, e4, e5, e6, e7⟩ := ih { s with udp := { s.udp with ev := o.apply s.udp.ev } } s2 rs' a hz
                have b' : (o.apply s.udp.ev).subs = subsAfter s.udp.ev.subs [o] := b
                have c' : (o.apply s.udp.ev).calls = s.udp.ev.calls := c
                refine ⟨[] :: hd, [] :: rc, by simp [l1], by simp [l2], by simpa using e1, ?_, ?_, e4, ?_, ?_, ?_⟩
                · simpa [atUdp] using e2
                · simpa [atPolls] using e3
                · simp only [b', c'] at e5
                  exact e5
                · simp only [b', c'] at e6
                  exact e6
                · simp only [b'] at e7
                  rw [e7]
                  cases o <;> rfl
              | op o =>
                obtain ⟨cs, g, gd, c, p⟩ := op_calling env hq fuel s.udp udp o _ hr hw
                obtain ⟨hd, rc, l1, l2, e1, e2, e3, e4, e5, e6, e7⟩ := ih { s with udp := udp } s2 rs' c.reg hz
                refine ⟨g :: hd, gd :: rc, by simp [l1], by simp [l2], ?_, ?_, ?_, e4, ?_, ?_, ?_⟩
                · refine e1.trans ?_
                  simp only [c.handed, List.flatten_cons, List.append_assoc]
                  refine List.Perm.append_left _ ?_
                  rw [← List.append_assoc, ← List.append_assoc]
                  exact List.Perm.append_right _ List.perm_append_comm
                · rw [e2]
                  simp only [c.delivered, List.zip_cons_cons, atUdp, List.flatMap_cons, List.append_assoc]
                · rw [e3]
                  simp [atPolls]
                · simp only [c.subs, c.calls, List.map_append] at e5
                  refine e5.trans ?_
                  simp only [List.zip_cons_cons, dueAlong]
                  rw [List.append_assoc]
                  exact List.Perm.append_left _ (p.append_right _)
                · rw [e6]
                  simp only [c.subs, c.calls, List.zip_cons_cons, dueAlong]
                  rw [callsAt, List.filter_append, ← callsAt, ← callsAt, c.own, List.append_assoc]
                · rw [e7]
                  simp only [c.subs]
                  rfl
          | poll o =>
            simp only [stepBoth, pollBoth_split] at hy
            cases hp : deliverBoth env beh fuel (pollMsgs d s.eq o) { s with eq := pollBase s.eq o } with
            | none => rw [hp] at hy; cases hy
            | some w =>
              rw [hp] at hy
              cases hy
              obtain ⟨e, cs, g, c, p⟩ := deliverBoth_calling env hq fuel _ { s with eq := pollBase s.eq o } s1 hr hp
              obtain ⟨hd, rc, l1, l2, e1, e2, e3, e4, e5, e6, e7⟩ := ih s1 s2 rs' c.reg hz
              have ed : s1.eq.delivered = s.eq.delivered ++ pollMsgs d s.eq o := by rw [e, pollBase_delivered]
              refine ⟨(pollMsgs d s.eq o ++ g) :: hd, pollMsgs d s.eq o :: rc, by simp [l1], by simp [l2], ?_, ?_, ?_, ?_, ?_, ?_, ?_⟩
              · refine e1.trans ?_
                rw [ed]
                simp only [c.handed, List.flatten_cons, List.append_assoc]
                refine List.Perm.append_left _ ?_
                rw [← List.append_assoc, ← List.append_assoc, ← List.append_assoc, ← List.append_assoc]
                refine List.Perm.append_right _ ?_
                exact (List.perm_append_comm (l₁ := g ++ s.eq.delivered)).trans (by
                  rw [← List.append_assoc]
                  exact (List.perm_append_comm (l₁ := pollMsgs d s.eq o ++ g)).trans (by rw [← List.append_assoc]))
              · rw [e2, c.delivered]
                simp [atUdp]
              · rw [e3, ed]
                simp only [List.zip_cons_cons, atPolls, List.flatMap_cons, List.append_assoc]
              · rw [e4, e]
                show _ = (pollsOf ops).foldl (eqPoll d (fun _ => .ok ())) (eqPoll d (fun _ => .ok ()) s.eq o)
                rw [eqPoll_parts, deliverAll_quiet, pollBase_delivered]
              · simp only [c.subs, c.calls, List.map_append] at e5
                refine e5.trans ?_
                simp only [List.zip_cons_cons, dueAlong]
                rw [List.append_assoc]
                exact List.Perm.append_left _ (p.append_right _)
              · rw [e6, c.subs, c.calls]
                simp only [List.zip_cons_cons, dueAlong]
                rw [callsAt, List.filter_append, ← callsAt, ← callsAt, c.own, List.append_assoc]
              · rw [e7, c.subs]
                rfl
  obtain ⟨hd, rc, l1, l2, e1, e2, e3, e4, e5, e6, e7⟩ := key ops { udp := ⟨DState.init hosts, ev⟩ } st rs h0 h
  exact ⟨hd, rc, l1, l2, by simpa [handedMessages, DState.init] using e1.symm, by rw [e2]; rfl, by rw [e3]; rfl, e4, e5, e6, e7⟩

/-! ## Everything returns -/

theorem deliverBoth_returns (env : DEnv) {beh : SBehaviour} (hq : ∀ tr cs, SProg.Quiet (beh tr cs)) {N fuel : Nat} (hN : N < fuel) : ∀ (ms : List Message) (st : BothState),
    Bounded N st.udp → ∃ st', deliverBoth env beh fuel ms st = some st'
  | [], _, _ => ⟨_, rfl⟩
  | m :: l, st, hb => by
    obtain ⟨udp, h1⟩ := handle_returns (send_below env hq fuel env.depth) (send_returns env hq hN env.depth) hq hN m st.udp hb
    obtain ⟨-, cs, g, c, -⟩ := handle_calling (send_below env hq fuel env.depth) hq m fuel st.udp udp _ hb.1 h1
    unfold deliverBoth
    simp only [h1]
    exact deliverBoth_returns env hq hN l _ ⟨c.reg, fun n => by simp only [c.subs]; exact hb.2 n⟩

/-- **C111, it returns.** With such subscribers every operation and every poll returns: no handler runs forever. -/
theorem C111_returns (env : DEnv) (d : TemplateDict) (beh : SBehaviour) (hq : ∀ tr cs, SProg.Quiet (beh tr cs)) (N fuel : Nat) (hfuel : N < fuel) (hosts : HostRef → Host)
    (ev : EvState Message) (h0 : ∀ n, n ∉ ev.names → ev.subs n = []) (ops : List BOp) (hN : ∀ n, (ev.subs n).length + ops.length ≤ N) :
    (runBoth env d beh fuel { udp := ⟨DState.init hosts, ev⟩ } ops).isSome = true := by
  have key : ∀ (ops : List BOp) (s : BothState), Registered s.udp.ev → (∀ n, (s.udp.ev.subs n).length + ops.length ≤ N) → (runBoth env d beh fuel s ops).isSome = true := by
    intro ops
    induction ops with
    | nil => intro s _ _; rfl
    | cons o ops ih =>
      intro s hr hn
      simp only [List.length_cons] at hn
      have hb : Bounded N s.udp := ⟨hr, fun n => by have := hn n; omega⟩
      unfold runBoth
      cases o with
      | udp o =>
        cases o with
        | subs o =>
          obtain ⟨a, b, _⟩ := subOps_spec [o] s.udp.ev hr
          have := ih { s with udp := { s.udp with ev := o.apply s.udp.ev } } a (fun n => by
            have h1 : (o.apply s.udp.ev).subs = subsAfter s.udp.ev.subs [o] := b
            simp only [h1]
            have := subsAfter_length [o] s.udp.ev.subs n
            have := hn n
            simp only [List.length_singleton] at *
            omega)
          simp only [stepBoth, stepSubs, Option.isSome_map]
          exact this
        | op o =>
          obtain ⟨x, udp, h1⟩ := op_returns env hq hfuel s.udp hb o
          obtain ⟨_, _, _, c, _⟩ := op_calling env hq fuel s.udp udp o x hr h1
          simp only [stepBoth, h1, Option.isSome_map]
          exact ih { s with udp := udp } c.reg (fun n => by simp only [c.subs]; have := hn n; omega)
      | poll o =>
        obtain ⟨s1, h1⟩ := deliverBoth_returns env hq hfuel (pollMsgs d s.eq o) { s with eq := pollBase s.eq o } hb
        obtain ⟨-, cs, g, c, -⟩ := deliverBoth_calling env hq fuel _ { s with eq := pollBase s.eq o } s1 hr h1
        simp only [stepBoth, pollBoth_split, h1, Option.map_some, Option.isSome_map]
        exact ih s1 c.reg (fun n => by simp only [c.subs]; have := hn n; omega)
  exact key ops _ h0 hN

/-! ## The roads are apart -/

/-- The part of a manager that the event queue of C108 works on. -/
def BothState.queue (st : BothState) : EqSubs := { eq := st.eq, ev := st.udp.ev, results := st.results }

theorem deliverBoth_queue (env : DEnv) (hd : 0 < env.depth) (beh : SBehaviour) (hp : ∀ tr cs, SProg.SubsOnly (beh tr cs)) (fuel : Nat) : ∀ (ms : List Message) (st : BothState),
    deliverBoth env beh fuel ms st =
      (deliverSubs (fun cs => SProg.toHandler (beh st.udp.d.trace cs)) fuel env.depth ms st.queue).map (fun x => { udp := ⟨st.udp.d, x.ev⟩, eq := x.eq, results := x.results })
  | [], st => rfl
  | m :: l, st => by
    obtain ⟨n, hn⟩ : ∃ n, env.depth = n + 1 := ⟨env.depth - 1, by omega⟩
    have e := handle_subsOnly beh hp (sendSubs env beh fuel env.depth) fuel n m st.udp
    rw [← hn] at e
    unfold deliverBoth deliverSubs
    rw [e]
    show _ = Option.map _ (match handleMessage _ fuel env.depth m.name m st.udp.ev with
      | (none, _) => none
      | (some r, ev) => _)
    generalize handleMessage (fun cs => SProg.toHandler (beh st.udp.d.trace cs)) fuel env.depth m.name m st.udp.ev = y
    obtain ⟨y, ev⟩ := y
    cases y with
    | none => rfl
    | some r =>
      cases r with
      | error x => rfl
      | ok u =>
        exact deliverBoth_queue env hd beh hp fuel l
          { udp := ⟨st.udp.d, ev⟩, eq := { st.eq with delivered := st.eq.delivered ++ [m] }, results := st.results ++ [.ok u] }

/-- **C111, the roads are apart.** If the subscribers only work on subscriptions (subscribe, unsubscribe, register, raise), then a poll is one of the event queue of C108 and nothing else: the dispatcher is
left as it was whatever the reply brings, a `PacketAck` event acknowledges nothing.  And no operation of the dispatcher, whatever its subscribers do, touches the event queue. -/
theorem C111_apart (env : DEnv) (hd : 0 < env.depth) (d : TemplateDict) (beh : SBehaviour) (fuel : Nat) (st st' : BothState) (r : OpResult) :
    (∀ o, (∀ tr cs, SProg.SubsOnly (beh tr cs)) → stepBoth env d beh fuel st (.poll o) = some (r, st') →
      st'.udp.d = st.udp.d ∧
      eqPollSubs d (fun cs => SProg.toHandler (beh st.udp.d.trace cs)) fuel env.depth { eq := st.eq, ev := st.udp.ev, results := st.results } ([], o) =
        some { eq := st'.eq, ev := st'.udp.ev, results := st'.results }) ∧
    (∀ o, stepBoth env d beh fuel st (.udp o) = some (r, st') →
      st'.eq = st.eq ∧ st'.results = st.results ∧ stepSubs env beh fuel st.udp o = (some r, st'.udp)) := by
  constructor
  · intro o hp h
    simp only [stepBoth, pollBoth_split, deliverBoth_queue env hd beh hp] at h
    have e : eqPollSubs d (fun cs => SProg.toHandler (beh st.udp.d.trace cs)) fuel env.depth { eq := st.eq, ev := st.udp.ev, results := st.results } ([], o) =
        deliverSubs (fun cs => SProg.toHandler (beh st.udp.d.trace cs)) fuel env.depth (pollMsgs d st.eq o) { eq := pollBase st.eq o, ev := st.udp.ev, results := st.results } := by
      have key : ∀ (v : Llsd) (eq : EqState), eq.result = v →
          (if eq.result = .undef then parseResultSubs d (fun cs => SProg.toHandler (beh st.udp.d.trace cs)) fuel env.depth
              { eq := { eq with lastId := .int (-1) }, ev := st.udp.ev, results := st.results } eq.result
            else match llsdItem eq.result "id" with
              | .ok i => parseResultSubs d (fun cs => SProg.toHandler (beh st.udp.d.trace cs)) fuel env.depth { eq := { eq with lastId := i }, ev := st.udp.ev, results := st.results } eq.result
              | .error _ => some { eq := eq, ev := st.udp.ev, results := st.results }) =
          deliverSubs (fun cs => SProg.toHandler (beh st.udp.d.trace cs)) fuel env.depth (if v = .undef then []
              else match llsdItem v "id" with
                | .ok i => match decodeEqResult d i v with
                  | .ok ms => ms
                  | .error _ => []
                | .error _ => []) ⟨(if eq.result = .undef then { eq with lastId := .int (-1) }
            else match llsdItem eq.result "id" with
              | .ok i => { eq with lastId := i }
              | .error _ => eq), st.udp.ev, st.results⟩ := by
        intro v eq hv
        rw [hv]
        unfold parseResultSubs
        by_cases hu : v = .undef
        · simp only [if_pos hu, deliverSubs]
        · simp only [if_neg hu]
          cases llsdItem v "id" with
          | error e => rfl
          | ok i =>
            simp only
            cases decodeEqResult d i v <;> rfl
      unfold eqPollSubs pollBase pollMsgs
      cases o with
      | response v => exact key v _ rfl
      | failure e => exact key st.eq.result { st.eq with posts := st.eq.posts ++ [pollData st.eq.lastId] } rfl
    rw [e]
    simp only [BothState.queue] at h
    cases hx : deliverSubs (fun cs => SProg.toHandler (beh st.udp.d.trace cs)) fuel env.depth (pollMsgs d st.eq o)
        { eq := pollBase st.eq o, ev := st.udp.ev, results := st.results } with
    | none => rw [hx] at h; cases h
    | some x =>
      rw [hx] at h
      cases h
      exact ⟨rfl, rfl⟩
  · intro o h
    simp only [stepBoth] at h
    generalize stepSubs env beh fuel st.udp o = w at h
    obtain ⟨w, udp⟩ := w
    cases w with
    | none => cases h
    | some w =>
      cases h
      exact ⟨rfl, rfl, rfl⟩

/-! ## Subscribers of fixed behaviour -/

theorem deliverBoth_exact (env : DEnv) {E : EvState Message} {beh : SBehaviour} {B : Fixed} (hb : BehavesAs beh B) (hl : ∀ h a k, SProg.LeavesSubs (B h a k))
    {fuel : Nat} (hf : ∀ n, (E.subs n).length < fuel) : ∀ (ms : List Message) (st : BothState), Having E st.udp.ev →
    ∃ ev res, Having E ev ∧ deliverBoth env beh fuel ms st =
      some { udp := ⟨(handEvents (withSubscribers env B E) B E.subs ms st.eq.delivered st.udp.d).2, ev⟩,
             eq := { st.eq with delivered := (handEvents (withSubscribers env B E) B E.subs ms st.eq.delivered st.udp.d).1 }, results := res }
  | [], st, h => ⟨st.udp.ev, st.results, h, rfl⟩
  | m :: l, st, h => by
    obtain ⟨ev, h1, e⟩ := handle_exact (send_exact env hb hl hf env.depth) hb hl hf env.depth m st.udp h
    unfold deliverBoth handEvents
    rw [e]
    have es : send (withSubscribers env B E) = sendWith (withSubscribers env B E) env.depth := rfl
    rw [es]
    generalize (allOf B (E.subs m.name) m).run (sendWith (withSubscribers env B E) env.depth) st.udp.d = y
    obtain ⟨y, d⟩ := y
    cases y with
    | error x => exact ⟨ev, _, h1, rfl⟩
    | ok u => exact deliverBoth_exact env hb hl hf l { udp := ⟨d, ev⟩, eq := { st.eq with delivered := st.eq.delivered ++ [m] }, results := st.results ++ [.ok u] } h1

/-- **C111, exactly.** If what a subscriber does depends only on the call (the message and the arguments) and leaves subscriptions and registrations alone (it may send, change hosts and raise), then a manager
returns, for every history, and what it does is this: its dispatcher is the one of the other properties whose handler runs the subscribers to the name of the message; a poll posts what C38 says, and the
events of its reply are handed over one after the other, each to the subscribers to its name, which send with the dispatcher as it is then, until one of them raises. -/
theorem C111_exact (env : DEnv) (t : TemplateDict) (beh : SBehaviour) (B : Fixed) (hb : BehavesAs beh B) (hl : ∀ h a k, SProg.LeavesSubs (B h a k)) (fuel : Nat) (udp : SubsState)
    (hf : ∀ n, (udp.ev.subs n).length < fuel) (h0 : ∀ n, n ∉ udp.ev.names → udp.ev.subs n = []) (ops : List (Op ⊕ PollOutcome)) :
    ∃ rs st, runBoth env t beh fuel { udp := udp } (asBOps ops) = some (rs, st) ∧ st.udp.ev.subs = udp.ev.subs ∧ st.udp.ev.names = udp.ev.names ∧
      (rs, st.udp.d, st.eq) = exactRun (withSubscribers env B udp.ev) t B udp.ev.subs udp.d {} ops := by
  have key : ∀ (E : EvState Message) (_ : ∀ n, (E.subs n).length < fuel) (ops : List (Op ⊕ PollOutcome)) (s : BothState), Having E s.udp.ev →
      ∃ rs st, runBoth env t beh fuel s (asBOps ops) = some (rs, st) ∧ st.udp.ev.subs = E.subs ∧ st.udp.ev.names = E.names ∧
        (rs, st.udp.d, st.eq) = exactRun (withSubscribers env B E) t B E.subs s.udp.d s.eq ops := by
    intro E hf ops
    induction ops with
    | nil => intro s h; exact ⟨[], s, rfl, h.1, h.2.2, rfl⟩
    | cons o ops ih =>
      intro s h
      cases o with
      | inl o =>
        obtain ⟨ev1, h1, e⟩ := step_exact env hb hl hf s.udp o h
        obtain ⟨rs, st, e1, e2, e3, e4⟩ := ih { s with udp := ⟨step (withSubscribers env B E) s.udp.d o, ev1⟩ } h1
        refine ⟨opResult (withSubscribers env B E) s.udp.d o :: rs, st, ?_, e2, e3, ?_⟩
        · show runBoth env t beh fuel s (.udp (.op o) :: asBOps ops) = _
          unfold runBoth
          simp only [stepBoth, e, e1, Option.map_some]
        · simp only [exactRun, exactStep]
          rw [← e4]
      | inr p =>
        obtain ⟨ev1, res, h1, e⟩ := deliverBoth_exact env hb hl hf (pollMsgs t s.eq p) { s with eq := pollBase s.eq p } h
        rw [pollBase_delivered] at e
        generalize hs1 : ({ udp := ⟨(handEvents (withSubscribers env B E) B E.subs (pollMsgs t s.eq p) s.eq.delivered s.udp.d).2, ev1⟩, eq := { pollBase s.eq p with delivered := (handEvents (withSubscribers env B E) B E.subs (pollMsgs t s.eq p) s.eq.delivered s.udp.d).1 }, results := res } : BothState) = s1 at e
        obtain ⟨rs, st, e1, e2, e3, e4⟩ := ih s1 (by rw [← hs1]; exact h1)
        rw [← hs1] at e4
        have ed : (eqPoll t (fun _ => .ok ()) s.eq p).delivered.drop s.eq.delivered.length = pollMsgs t s.eq p := by
          rw [eqPoll_parts, deliverAll_quiet]
          simp
        refine ⟨.nothing :: rs, st, ?_, e2, e3, ?_⟩
        · show runBoth env t beh fuel s (.poll p :: asBOps ops) = _
          unfold runBoth
          simp only [stepBoth, pollBoth_split, e, Option.map_some]
          simp only [e1, Option.map_some]
        · simp only [exactRun, exactStep, ed]
          rw [eqPoll_parts]
          simp only
          rw [← e4]
  exact key udp.ev hf ops { udp := udp } ⟨rfl, h0, rfl⟩

/-! ## Examples -/

/-- Subscribers to `ChatterBoxInvitation` (1, which sends a message), `PacketAck` (2) and `Demo` (3). -/
def bothDemo : EvState Message :=
  { names := ["ChatterBoxInvitation", "PacketAck", "Demo"],
    subs := fun n => if n = "ChatterBoxInvitation" then [⟨1, [10], []⟩] else if n = "PacketAck" then [⟨2, [], []⟩] else if n = "Demo" then [⟨3, [], []⟩] else [] }

def bothOps : List BOp :=
  [.udp (.op (.recv 0 demoDatagram)), .poll (.response (demoResponse 5)), .udp (.subs (.subscribe "Demo" ⟨4, [], []⟩)), .poll (.failure (.httpError 502)),
    .udp (.op (.recv 0 demoDatagram)), .udp (.op (.processAcks [dispAddr 0]))]

/-- The hypotheses of `C111_calls` and `C111_returns`, and what happens: a datagram, two events (handed over again after the failed poll), a datagram, and (level 4) the `PacketAck` messages
that handler 1 and `process_acks` send. -/
example : (∀ tr cs, SProg.Quiet (acknowledging tr cs)) ∧ (∀ n, n ∉ bothDemo.names → bothDemo.subs n = []) ∧
    (runBoth udpSubsEnv dispDict acknowledging 10 { udp := ⟨DState.init dispHosts, bothDemo⟩ } bothOps).map
      (fun x => (x.2.udp.ev.calls.map (fun c => (c.level, c.event, c.handler)), x.2.eq.delivered.map (·.name), x.2.eq.posts.length, x.2.udp.d.packetsOut)) =
      some ([(5, "Demo", 3), (5, "PacketAck", 2), (5, "ChatterBoxInvitation", 1), (4, "PacketAck", 2), (5, "PacketAck", 2), (5, "ChatterBoxInvitation", 1), (4, "PacketAck", 2),
        (5, "Demo", 3), (5, "Demo", 4), (4, "PacketAck", 2)], ["PacketAck", "ChatterBoxInvitation", "PacketAck", "ChatterBoxInvitation"], 2, 3) := by
  refine ⟨?_, ?_, by decide +kernel⟩
  · intro tr cs
    unfold acknowledging
    split
    · split
      · exact fun _ => trivial
      · trivial
    · trivial
  · intro n hn
    simp only [bothDemo, List.mem_cons, List.not_mem_nil, or_false, not_or] at hn ⊢
    rw [if_neg hn.1, if_neg hn.2.1, if_neg hn.2.2]

/-- A `PacketAck` event acknowledges nothing: `C111_apart` with a message waiting for acknowledgement. -/
example : (runBoth dispEnv dispDict (fun _ _ => .done) 10 { udp := ⟨DState.init dispHosts, bothDemo⟩ }
      [.udp (.op (.send demoMessage 0 (.reliable 3))), .poll (.response (.map [("id", .int 5), ("events", .arr [.map [("message", .str "PacketAck"),
        ("body", .map [("Packets", .arr [.map [("ID", .int 1)]])])]])]))]).map
      (fun x => (x.2.eq.delivered.map (·.name), (x.2.udp.d.circuits.get? (dispAddr 0)).map (fun c => c.unacked.keys))) = some (["PacketAck"], some [1]) := by
  decide +kernel

/-- The hypotheses of `C111_exact` (`fixedDemo` and its behaviour: see `C109_exact`), and what happens: the event of handler 1 makes it change a host and send. -/
example : BehavesAs fixedDemoBeh fixedDemo ∧ (∀ n, (bothDemo.subs n).length < 10) ∧ (∀ n, n ∉ bothDemo.names → bothDemo.subs n = []) ∧
    (runBoth udpSubsEnv dispDict fixedDemoBeh 10 { udp := ⟨DState.init dispHosts, bothDemo⟩ } (asBOps [.inl (.recv 0 demoDatagram), .inr (.response (demoResponse 5))])).map
      (fun x => (decide (x.2.udp.d.hosts 1 = dispHosts 0), x.2.udp.d.packetsOut, x.2.udp.ev.calls.map (·.handler), x.2.eq.delivered.map (·.name))) =
      some (true, 1, [3, 2, 1, 2], ["PacketAck", "ChatterBoxInvitation"]) := by
  refine ⟨fun tr cs c => by simp [fixedDemoBeh], fun n => ?_, fun n hn => ?_, by decide +kernel⟩
  · simp only [bothDemo]
    split
    · decide
    · split
      · decide
      · split <;> decide
  · simp only [bothDemo, List.mem_cons, List.not_mem_nil, or_false, not_or] at hn ⊢
    rw [if_neg hn.1, if_neg hn.2.1, if_neg hn.2.2]

end Pyogp
