import Verif.Spec.RegionEvents
import Verif.Props.BothRoads
import Verif.Props.EventServer

/-!
# C112: from a simulator's events to the subscribers of a manager
-/

namespace Pyogp
open Spec

/-- The calls for messages of this name. -/
def callsNamed (name : String) (cs : List (Call Message)) : List (Call Message) := cs.filter (fun c => c.event = name)

theorem callsNamed_for (n : Nat) (subs : String → List Sub) (name : String) : ∀ ms : List Message,
    callsNamed name (callsFor n subs ms) = callsFor n subs (ms.filter (fun m => m.name = name))
  | [] => rfl
  | m :: ms => by
    have ih := callsNamed_for n subs name ms
    have e : callsFor n subs (m :: ms) = (subs m.name).map (callOf n m.name m) ++ callsFor n subs ms := rfl
    rw [e, callsNamed, List.filter_append, ← callsNamed, ← callsNamed, ih]
    by_cases hm : m.name = name
    · have h1 : callsNamed name ((subs m.name).map (callOf n m.name m)) = (subs m.name).map (callOf n m.name m) := by
        rw [callsNamed, List.filter_eq_self]
        intro c hc
        obtain ⟨s, _, rfl⟩ := List.mem_map.mp hc
        simp [callOf, hm]
      rw [h1, List.filter_cons_of_pos (by simp [hm])]
      rfl
    · have h1 : callsNamed name ((subs m.name).map (callOf n m.name m)) = [] := by
        rw [callsNamed, List.filter_eq_nil_iff]
        intro c hc
        obtain ⟨s, _, rfl⟩ := List.mem_map.mp hc
        simp [callOf, hm]
      rw [h1, List.filter_cons_of_neg (by simp [hm])]
      rfl

/-- What holds of a manager at every moment. -/
structure ServingInv (env : DEnv) (d : TemplateDict) (subs : String → List Sub) (sv0 : EqServer) (evs : List Event) (f : Nat) (st : BothState) (sv : EqServer) : Prop where
  reg : Registered st.udp.ev
  same : st.udp.ev.subs = subs
  polling : Polling d (fun _ => .ok ()) sv0 evs f st.eq sv
  calls : ∀ name, (∀ m ∈ deliveredMessages st.udp.d.trace, m.name ≠ name) →
    callsNamed name (callsAt env.depth st.udp.ev.calls) = callsFor env.depth subs (st.eq.delivered.filter (fun m => m.name = name))

theorem poll_eq {env : DEnv} {d : TemplateDict} {beh : SBehaviour} (hq : ∀ tr cs, SProg.Quiet (beh tr cs)) {fuel : Nat} {st st' : BothState} {o : PollOutcome} {r : OpResult}
    (hr : Registered st.udp.ev) (h : stepBoth env d beh fuel st (.poll o) = some (r, st')) :
    st'.eq = eqPoll d (fun _ => .ok ()) st.eq o ∧ st'.eq.delivered = st.eq.delivered ++ pollMsgs d st.eq o ∧
      ∃ cs g, Calling env.depth (callsFor env.depth st.udp.ev.subs (pollMsgs d st.eq o)) st.udp st'.udp cs g [] := by
  simp only [stepBoth, pollBoth_split] at h
  cases hp : deliverBoth env beh fuel (pollMsgs d st.eq o) { st with eq := pollBase st.eq o } with
  | none => rw [hp] at h; cases h
  | some w =>
    rw [hp] at h
    cases h
    obtain ⟨e, cs, g, c, -⟩ := deliverBoth_calling env hq fuel _ { st with eq := pollBase st.eq o } st' hr hp
    refine ⟨?_, ?_, cs, g, c⟩
    · rw [e, eqPoll_parts, deliverAll_quiet, pollBase_delivered]
    · rw [e, pollBase_delivered]

theorem serving_inv {env : DEnv} {d : TemplateDict} {beh : SBehaviour} (hq : ∀ tr cs, SProg.Quiet (beh tr cs)) {fuel : Nat} {hosts : HostRef → Host} {names : List String}
    {subs : String → List Sub} (hn : ∀ k, k ∉ names → subs k = []) {sv0 : EqServer} {evs : List Event} {f : Nat} {st : BothState} {sv : EqServer}
    (h : Serving env d beh fuel ⟨DState.init hosts, { names := names, subs := subs }⟩ sv0 evs f st sv) : ServingInv env d subs sv0 evs f st sv := by
  induction h with
  | start => exact ⟨hn, rfl, .start, fun name _ => rfl⟩
  | happens e _ ih => exact ⟨ih.reg, ih.same, .happens e ih.polling, ih.calls⟩
  | @dispatcher evs f st st' sv o r _ hs ih =>
    simp only [stepBoth] at hs
    generalize hw : stepSubs env beh fuel st.udp (.op o) = w at hs
    obtain ⟨w, udp⟩ := w
    cases w with
    | none => cases hs
    | some w =>
      cases hs
      obtain ⟨cs, g, gd, c, -⟩ := op_calling env hq fuel st.udp udp o _ ih.reg hw
      refine ⟨c.reg, c.subs.trans ih.same, ih.polling, fun name hne => ?_⟩
      have hd : deliveredMessages udp.d.trace = deliveredMessages st.udp.d.trace ++ gd := c.delivered
      have hold := ih.calls name (fun m hm => hne m (by show m ∈ deliveredMessages udp.d.trace; rw [hd]; exact List.mem_append_left _ hm))
      have hnew : callsNamed name (callsFor env.depth st.udp.ev.subs gd) = [] := by
        rw [callsNamed_for, List.filter_eq_nil_iff.mpr]
        · rfl
        · intro m hm
          have := hne m (by show m ∈ deliveredMessages udp.d.trace; rw [hd]; exact List.mem_append_right _ hm)
          simpa using this
      show callsNamed name (callsAt env.depth udp.ev.calls) = _
      rw [c.calls, callsAt, List.filter_append, ← callsAt, ← callsAt, c.own, callsNamed, List.filter_append, ← callsNamed, ← callsNamed, hnew, List.append_nil]
      exact hold
  | @poll evs f st st' sv sv' ok o post r _ hs hpost hx ih =>
    obtain ⟨e, ed, cs, g, c⟩ := poll_eq hq ih.reg hs
    refine ⟨c.reg, c.subs.trans ih.same, ?_, fun name hne => ?_⟩
    · rw [e] at hpost ⊢
      cases hx with
      | requestLost x => exact .requestLost x ih.polling
      | serverError x => exact .serverError x post ih.polling hpost
      | answerLost x ha => exact .answerLost x post _ ih.polling hpost ha
      | answered v ha hr => exact .answered v post _ ih.polling hpost ha hr
    · have hd : deliveredMessages st'.udp.d.trace = deliveredMessages st.udp.d.trace := by rw [c.delivered, List.append_nil]
      rw [hd] at hne
      rw [c.calls, callsAt, List.filter_append, ← callsAt, ← callsAt, c.own, callsNamed, List.filter_append, ← callsNamed, ← callsNamed, ih.calls name hne, callsNamed_for, ed,
        List.filter_append, callsFor_append, ih.same]

/-- The managers' event queues are clients in the sense of C96. -/
theorem managers_clients {env : DEnv} {d : TemplateDict} {beh : SBehaviour} (hq : ∀ tr cs, SProg.Quiet (beh tr cs)) {fuel : Nat} {subs : String → List Sub} {sv0 : EqServer}
    {es : List Event} {cs : List (Call Message)} {us : List Message} {n : Nat} {sv : EqServer} (h : Managers env d beh fuel subs sv0 es cs us n sv) :
    ∃ ms, Clients d (fun _ => .ok ()) sv0 es ms n sv ∧
      ∀ name, (∀ m ∈ us, m.name ≠ name) → callsNamed name cs = callsFor env.depth subs (ms.filter (fun m => m.name = name)) := by
  have more : ∀ {ms : List Message} {us : List Message} {cs : List (Call Message)} {evs f sv sv'} {st : BothState},
      (∀ name, (∀ m ∈ us, m.name ≠ name) → callsNamed name cs = callsFor env.depth subs (ms.filter (fun m => m.name = name))) → ServingInv env d subs sv evs f st sv' →
      ∀ name, (∀ m ∈ us ++ deliveredMessages st.udp.d.trace, m.name ≠ name) →
        callsNamed name (cs ++ callsAt env.depth st.udp.ev.calls) = callsFor env.depth subs ((ms ++ st.eq.delivered).filter (fun m => m.name = name)) := by
    intro ms us cs evs f sv sv' st h1 h2 name hne
    rw [callsNamed, List.filter_append, ← callsNamed, ← callsNamed, h1 name (fun m hm => hne m (List.mem_append_left _ hm)),
      h2.calls name (fun m hm => hne m (List.mem_append_right _ hm)), List.filter_append, callsFor_append]
  induction h with
  | none => exact ⟨[], .none, fun _ _ => rfl⟩
  | stopped hosts names final _ hn hs hp ih =>
    obtain ⟨ms, h1, h2⟩ := ih
    have hi := serving_inv hq hn hs
    exact ⟨_, .stopped final h1 hi.polling hp, more h2 hi⟩
  | idle hosts names final _ hn hs hp ih =>
    obtain ⟨ms, h1, h2⟩ := ih
    have hi := serving_inv hq hn hs
    exact ⟨_, .idle final h1 hi.polling hp, more h2 hi⟩
  | crashed hosts names _ hn hs ih =>
    obtain ⟨ms, h1, h2⟩ := ih
    have hi := serving_inv hq hn hs
    exact ⟨_, .crashed h1 hi.polling, more h2 hi⟩

/-- **C112.** One manager after the other polls a simulator that repeats its last response until it is acknowledged; requests and answers may get lost, the simulator may report errors and managers may crash;
and meanwhile their dispatchers send and receive anything.  The subscribers return normally and leave subscriptions alone (they may send messages).  Then for every message name that does not also come over
UDP, the subscribers to it are called for the events of that name in the responses of the simulator in the order it made them, without a gap, one call per subscription in order, for each response once
or several times in a row (at most for the last one not yet), with at most as many repetitions as failures. -/
theorem C112_in_order (env : DEnv) (d : TemplateDict) (beh : SBehaviour) (hq : ∀ tr cs, SProg.Quiet (beh tr cs)) (fuel : Nat) (subs : String → List Sub) (sv0 sv : EqServer) (h0 : sv0.sent = [])
    (hu : sv0.unacked = false) (es : List Event) (cs : List (Call Message)) (us : List Message) (fails : Nat) (h : Managers env d beh fuel subs sv0 es cs us fails sv) :
    ∃ times : List Nat, (∀ t ∈ times, 1 ≤ t) ∧ times.sum ≤ times.length + fails ∧ (times.length = sv.sent.length ∨ (times.length + 1 = sv.sent.length ∧ sv.unacked = true)) ∧
      ∀ name, (∀ m ∈ us, m.name ≠ name) → cs.filter (fun c => c.event = name) =
        callsFor env.depth subs ((handedOver (sv.sent.take times.length) times).filter (fun m => m.name = name)) := by
  obtain ⟨ms, hc, hcalls⟩ := managers_clients hq h
  obtain ⟨times, e, h1, h2, h3⟩ := C96_in_order d _ (fun _ => rfl) sv0 sv h0 hu es ms fails hc
  exact ⟨times, h1, h2, h3, fun name hne => by rw [← e]; exact hcalls name hne⟩

/-- **C112, nothing is lost.** Every event that has happened, of a name that does not also come over UDP, has led to a call of every subscriber to its name (with the message of a response it was in), or it is in
the last response and that has not been acknowledged yet, or it waits in the simulator. -/
theorem C112_nothing_lost (env : DEnv) (d : TemplateDict) (beh : SBehaviour) (hq : ∀ tr cs, SProg.Quiet (beh tr cs)) (fuel : Nat) (subs : String → List Sub) (sv0 sv : EqServer) (h0 : sv0.sent = [])
    (hu : sv0.unacked = false) (es : List Event) (cs : List (Call Message)) (us : List Message) (fails : Nat) (h : Managers env d beh fuel subs sv0 es cs us fails sv)
    (e : Event) (he : e ∈ sv0.waiting ++ es) (hne : ∀ m ∈ us, m.name ≠ e.name) :
    (∃ r ∈ sv.sent, e ∈ r.2 ∧ ∀ s ∈ subs e.name, ⟨env.depth, e.name, s.handler, (e.message r.1, s.args), s.kwargs⟩ ∈ cs) ∨
      (sv.unacked = true ∧ ∃ r, sv.sent.getLast? = some r ∧ e ∈ r.2) ∨ e ∈ sv.waiting := by
  obtain ⟨ms, hc, hcalls⟩ := managers_clients hq h
  rcases C96_nothing_lost d _ (fun _ => rfl) sv0 sv h0 hu es ms fails hc e he with ⟨r, hr, her, hm⟩ | h1 | h1
  · refine .inl ⟨r, hr, her, fun s hs => ?_⟩
    have hname : (e.message r.1).name = e.name := rfl
    have : (⟨env.depth, e.name, s.handler, (e.message r.1, s.args), s.kwargs⟩ : Call Message) ∈ callsNamed e.name cs := by
      rw [hcalls e.name hne]
      exact List.mem_flatMap.mpr ⟨e.message r.1, List.mem_filter.mpr ⟨hm, by simp [hname]⟩, List.mem_map.mpr ⟨s, hs, rfl⟩⟩
    exact (List.mem_filter.mp this).1
  · exact .inr (.inl h1)
  · exact .inr (.inr h1)

/-- **C112, exactly once.** As long as nothing fails, the calls for a name that does not also come over UDP are exactly those for the events in the responses, each once, in the order in which they happened
and, for each, of the subscriptions; and the events in responses and those that wait are all that happened. -/
theorem C112_exactly_once (env : DEnv) (d : TemplateDict) (beh : SBehaviour) (hq : ∀ tr cs, SProg.Quiet (beh tr cs)) (fuel : Nat) (subs : String → List Sub) (sv0 sv : EqServer) (h0 : sv0.sent = [])
    (hu : sv0.unacked = false) (es : List Event) (cs : List (Call Message)) (us : List Message) (h : Managers env d beh fuel subs sv0 es cs us 0 sv) :
    (∀ name, (∀ m ∈ us, m.name ≠ name) → cs.filter (fun c => c.event = name) =
      callsFor env.depth subs ((sv.sent.flatMap (fun r => r.2.map (Event.message r.1))).filter (fun m => m.name = name))) ∧
    sv.sent.flatMap (·.2) ++ sv.waiting = sv0.waiting ++ es := by
  obtain ⟨ms, hc, hcalls⟩ := managers_clients hq h
  obtain ⟨e1, e2⟩ := C96_exactly_once d _ (fun _ => rfl) sv0 sv h0 hu es ms hc
  exact ⟨fun name hne => by rw [← e1]; exact hcalls name hne, e2⟩

/-! ## Demonstration: two managers -/

/-- The manager after an operation. -/
def regionThen (st : BothState) (o : BOp) : BothState := ((stepBoth udpSubsEnv dispDict acknowledging 10 st o).map (·.2)).getD st

theorem regionThen_eq (st : BothState) (o : BOp) (h : (stepBoth udpSubsEnv dispDict acknowledging 10 st o).isSome = true) :
    ∃ r, stepBoth udpSubsEnv dispDict acknowledging 10 st o = some (r, regionThen st o) := by
  unfold regionThen
  cases e : stepBoth udpSubsEnv dispDict acknowledging 10 st o with
  | none => rw [e] at h; cases h
  | some w => exact ⟨w.1, rfl⟩

def region0 : BothState := { udp := ⟨DState.init dispHosts, { names := bothDemo.names, subs := bothDemo.subs }⟩, eq := { running := true } }
def region1 : BothState := regionThen (regionThen region0 (.udp (.op (.recv 0 demoDatagram)))) (.poll (.response (demoResponse 5)))
def region2 : BothState := regionThen region0 (.poll (.response (demoResponse 5)))

/-- The first manager receives a datagram and the two events. -/
theorem region_first : Serving udpSubsEnv dispDict acknowledging 10 region0.udp eqServer [] 0 region1 eqServed := by
  obtain ⟨r1, h1⟩ := regionThen_eq region0 (.udp (.op (.recv 0 demoDatagram))) (by decide +kernel)
  obtain ⟨r2, h2⟩ := regionThen_eq (regionThen region0 (.udp (.op (.recv 0 demoDatagram)))) (.poll (.response (demoResponse 5))) (by decide +kernel)
  refine .poll (ok := true) _ (.map []) r2 (.dispatcher _ r1 .start h1) h2 (by decide +kernel) (.answered _ (r := (.int 5, [demoAckEvent, demoChatEvent])) ?_ (demo_isResponse 5))
  have : eqServer.register (.map []) = eqServer := by
    rcases eqServer.register_eq (.map []) with ⟨e, -⟩ | ⟨-, m, r, h, h', -⟩
    · exact e
    · cases h'
  rw [this]
  exact EqServer.Answers.new (.int 5) 2 rfl (by simp [SaneId]) (by intro r h; cases h)

/-- The second gets the response again. -/
theorem region_second : Serving udpSubsEnv dispDict acknowledging 10 region0.udp eqServed [] 0 region2 eqServed := by
  obtain ⟨r2, h2⟩ := regionThen_eq region0 (.poll (.response (demoResponse 5))) (by decide +kernel)
  refine .poll (ok := true) _ (.map []) r2 .start h2 (by decide +kernel) (.answered _ (r := (.int 5, [demoAckEvent, demoChatEvent])) ?_ (demo_isResponse 5))
  have : eqServed.register (.map []) = eqServed := by
    rcases eqServed.register_eq (.map []) with ⟨e, -⟩ | ⟨-, m, r, h, -, h'⟩
    · exact e
    · cases h; cases h'
  rw [this]
  exact EqServer.Answers.again rfl rfl

/-- The hypotheses of `C112_in_order` and `C112_nothing_lost` are met by two managers, the first of which crashes; the subscribers to the two events are called twice, that to `Demo` for the datagram. -/
example : ∃ cs us sv, Managers udpSubsEnv dispDict acknowledging 10 bothDemo.subs eqServer [] cs us 1 sv ∧ sv.unacked = false ∧ us.map (·.name) = ["Demo"] ∧
    cs.map (fun c => (c.event, c.handler)) = [("Demo", 3), ("PacketAck", 2), ("ChatterBoxInvitation", 1), ("PacketAck", 2), ("ChatterBoxInvitation", 1)] := by
  have hn : ∀ k, k ∉ bothDemo.names → bothDemo.subs k = [] := by
    intro n hn
    simp only [bothDemo, List.mem_cons, List.not_mem_nil, or_false, not_or] at hn ⊢
    rw [if_neg hn.1, if_neg hn.2.1, if_neg hn.2.2]
  refine ⟨_, _, _, .stopped dispHosts bothDemo.names (.response .undef) (.crashed dispHosts bothDemo.names .none hn region_first) hn region_second
    (post := .map [("ack", .int 5), ("done", .bool true)]) (by decide +kernel), ?_, by decide +kernel, by decide +kernel⟩
  rcases eqServed.register_eq (.map [("ack", .int 5), ("done", .bool true)]) with ⟨-, h⟩ | ⟨e, -⟩
  · exact absurd ⟨_, _, rfl, rfl, by decide +kernel⟩ h
  · rw [e]

/-- Those of `C112_exactly_once`: one manager, which stops. -/
example : ∃ cs us sv, Managers udpSubsEnv dispDict acknowledging 10 bothDemo.subs eqServer [] cs us 0 sv ∧ sv.sent.length = 1 ∧
    cs.map (fun c => (c.event, c.handler)) = [("Demo", 3), ("PacketAck", 2), ("ChatterBoxInvitation", 1)] := by
  have hn : ∀ k, k ∉ bothDemo.names → bothDemo.subs k = [] := by
    intro n hn
    simp only [bothDemo, List.mem_cons, List.not_mem_nil, or_false, not_or] at hn ⊢
    rw [if_neg hn.1, if_neg hn.2.1, if_neg hn.2.2]
  refine ⟨_, _, _, .stopped dispHosts bothDemo.names (.response .undef) .none hn region_first
    (post := .map [("ack", .int 5), ("done", .bool true)]) (by decide +kernel), ?_, by decide +kernel⟩
  rcases eqServed.register_eq (.map [("ack", .int 5), ("done", .bool true)]) with ⟨e, -⟩ | ⟨e, -⟩ <;> rw [e] <;> rfl

end Pyogp
