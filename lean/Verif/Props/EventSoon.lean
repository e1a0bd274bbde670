import Verif.Spec.EventSoon
import Verif.Props.RegionEvents

/-!
# C113: how soon events arrive
-/

namespace Pyogp
open Spec

/-- The number of events in the first `c` responses. -/
def eventsIn (rs : List (Llsd × List Event)) (c : Nat) : Nat := ((rs.take c).flatMap (·.2)).length

theorem eventsIn_mono (rs : List (Llsd × List Event)) (a b : Nat) (h : a ≤ b) : eventsIn rs a ≤ eventsIn rs b := by
  unfold eventsIn
  obtain ⟨l, hl⟩ : rs.take a <+: rs.take b := List.take_prefix_take_left h
  rw [← hl]
  simp

theorem eventsIn_snoc (rs : List (Llsd × List Event)) (r : Llsd × List Event) : eventsIn (rs ++ [r]) (rs.length + 1) = eventsIn rs rs.length + r.2.length := by
  simp [eventsIn, List.take_of_length_le]

theorem eventsIn_left (rs : List (Llsd × List Event)) (r : Llsd × List Event) (c : Nat) (h : c ≤ rs.length) : eventsIn (rs ++ [r]) c = eventsIn rs c := by
  unfold eventsIn
  rw [List.take_append_of_le_length h]

/-- `n` polls have succeeded since there were `t` events, `w` of them waiting; `c` responses have come through: either those events have, or not much is missing. -/
def Arriving (t w c : Nat) (rs : List (Llsd × List Event)) (n : Nat) : Prop :=
  t ≤ eventsIn rs c ∨ t - eventsIn rs rs.length + (rs.length - c) + n ≤ w + 1

theorem Spec.EqServer.Answers.prefix {sv sv' : EqServer} {r : Llsd × List Event} (ha : sv.Answers r sv') : sv.sent <+: sv'.sent := by
  cases ha with
  | again _ _ => exact List.prefix_rfl
  | new _ _ _ _ _ => exact List.prefix_append _ _

theorem answers_progress {t w c n : Nat} {sv sv' : EqServer} {r : Llsd × List Event} (hc : c = sv.sent.length ∨ c + 1 = sv.sent.length ∧ sv.unacked = true)
    (hu : c = sv.sent.length → sv.unacked = false) (ha : sv.Answers r sv') (hne : ∀ r ∈ sv'.sent, r.2 ≠ []) (hp : Arriving t w c sv.sent n) :
    Arriving t w c sv'.sent n ∧ Arriving t w (c + 1) sv'.sent (n + 1) := by
  cases ha with
  | again hun _ =>
    have hlen : c + 1 = sv.sent.length := by
      rcases hc with h | ⟨h, -⟩
      · rw [hu h] at hun; cases hun
      · exact h
    refine ⟨hp, ?_⟩
    rcases hp with hp | hp
    · exact .inl (Nat.le_trans hp (eventsIn_mono _ _ _ (Nat.le_succ c)))
    · exact .inr (by omega)
  | new id k hun _ _ =>
    have hlen : c = sv.sent.length := by
      rcases hc with h | ⟨-, h⟩
      · exact h
      · rw [hun] at h; cases h
    have hpos : 1 ≤ (sv.waiting.take k).length := List.length_pos_iff.mpr (hne (id, sv.waiting.take k) (by simp))
    have e1 := eventsIn_snoc sv.sent (id, sv.waiting.take k)
    have e2 := eventsIn_left sv.sent (id, sv.waiting.take k) c (by omega)
    have e3 := eventsIn_mono (sv.sent ++ [(id, sv.waiting.take k)]) c (c + 1) (Nat.le_succ c)
    unfold Arriving at hp ⊢
    simp only [List.length_append, List.length_cons, List.length_nil, Nat.zero_add]
    simp only at e1
    rw [hlen] at hp e2 e3 ⊢
    omega

theorem later_progress {d : TemplateDict} {h : EqHandler} (hh : ∀ l, h l = .ok ()) {k f0 : Nat} {st0 : EqState} {sv0 : EqServer} {times0 : List Nat} (hm : Met d k f0 st0 sv0 times0)
    {evs : List Event} {n : Nat} {st : EqState} {sv : EqServer} (hl : Later d h st0 sv0 evs n st sv) :
    (∀ r ∈ sv.sent, r.2 ≠ []) → ∃ f times, Met d k f st sv times ∧ Arriving (eventsIn sv0.sent sv0.sent.length + sv0.waiting.length) sv0.waiting.length (k + times.length) sv.sent n ∧
      n ≤ times.length := by
  induction hl with
  | start =>
    refine fun _ => ⟨f0, times0, hm, .inr ?_, Nat.zero_le _⟩
    have := hm.count
    omega
  | happens e _ ih =>
    intro hne
    obtain ⟨f, times, m, p⟩ := ih hne
    exact ⟨f, times, ⟨m.pos, m.sum, m.sane, m.count, m.delivered, m.fresh, m.last⟩, p⟩
  | @poll evs n st sv sv' ok o post _ hpost hx ih =>
    obtain ⟨pm, pe, hg⟩ := pollData_ack st.lastId
    rw [← post_eq hpost] at pe
    cases hx with
    | requestLost x =>
      intro hne
      obtain ⟨f, times, m, p, hn⟩ := ih hne
      obtain ⟨times', hlen, m'⟩ := m.failure hh x
      exact ⟨f + 1, times', m', by rw [hlen]; exact p, by rw [hlen]; exact hn⟩
    | serverError x =>
      intro hne
      rw [(sv.register_sent post).1] at hne ⊢
      obtain ⟨f, times, m, p, hn⟩ := ih hne
      rw [pe]
      obtain ⟨times', hlen, m'⟩ := (m.register hg).1.failure hh x
      exact ⟨f + 1, times', m', by rw [hlen]; exact p, by rw [hlen]; exact hn⟩
    | answerLost x ha =>
      intro hne
      have hpre := ha.prefix
      rw [(sv.register_sent post).1] at hpre
      obtain ⟨f, times, m, p, hn⟩ := ih (fun r hr => hne r (hpre.subset hr))
      have m1 := m.register hg
      rw [← pe] at m1
      rw [← (sv.register_sent post).1] at p
      have p' := (answers_progress m1.1.count m1.2 ha hne p).1
      obtain ⟨times', hlen, m'⟩ := (m1.1.answers m1.2 ha).1.failure hh x
      exact ⟨f + 1, times', m', by rw [hlen]; exact p', by rw [hlen]; exact hn⟩
    | answered v ha hr =>
      intro hne
      have hpre := ha.prefix
      rw [(sv.register_sent post).1] at hpre
      obtain ⟨f, times, m, p, hn⟩ := ih (fun r hr => hne r (hpre.subset hr))
      have m1 := m.register hg
      rw [← pe] at m1
      rw [← (sv.register_sent post).1] at p
      have p' := (answers_progress m1.1.count m1.2 ha hne p).2
      obtain ⟨h3, h4, h5, -⟩ := m1.1.answers m1.2 ha
      refine ⟨f, times ++ [1], h3.received hh hr h4 h5, ?_, by simp; omega⟩
      rw [List.length_append, ← Nat.add_assoc]
      exact p'

/-- What comes later is a continuation. -/
theorem later_polling {d : TemplateDict} {h : EqHandler} {sv0 sv1 : EqServer} {evs0 : List Event} {f0 : Nat} {st1 : EqState} (hp : Polling d h sv0 evs0 f0 st1 sv1)
    {evs : List Event} {n : Nat} {st : EqState} {sv : EqServer} (hl : Later d h st1 sv1 evs n st sv) : ∃ f, Polling d h sv0 (evs0 ++ evs) f st sv := by
  induction hl with
  | start => exact ⟨f0, by rw [List.append_nil]; exact hp⟩
  | happens e _ ih =>
    obtain ⟨f, ih⟩ := ih
    exact ⟨f, by rw [← List.append_assoc]; exact .happens e ih⟩
  | poll o post _ hpost hx ih =>
    obtain ⟨f, ih⟩ := ih
    cases hx with
    | requestLost x => exact ⟨_, .requestLost x ih⟩
    | serverError x => exact ⟨_, .serverError x post ih hpost⟩
    | answerLost x ha => exact ⟨_, .answerLost x post _ ih hpost ha⟩
    | answered v ha hr => exact ⟨_, .answered v post _ ih hpost ha hr⟩

/-- The responses that have come through were handed over. -/
theorem mem_handedOver {rs : List (Llsd × List Event)} {times : List Nat} (hp : ∀ t ∈ times, 1 ≤ t) (hl : times.length ≤ rs.length) {r : Llsd × List Event}
    (hr : r ∈ rs.take times.length) {e : Event} (he : e ∈ r.2) : e.message r.1 ∈ handedOver (rs.take times.length) times := by
  obtain ⟨i, hi⟩ := List.mem_iff_getElem?.mp hr
  obtain ⟨hlt, -⟩ := List.getElem?_eq_some_iff.mp hi
  have hit : i < times.length := by rw [List.length_take] at hlt; omega
  rw [handedOver, List.mem_flatMap]
  have ht : times[i]? = some times[i] := List.getElem?_eq_getElem hit
  refine ⟨(r, times[i]), List.mem_iff_getElem?.mpr ⟨i, ?_⟩, ?_⟩
  · rw [List.getElem?_zip_eq_some]
    exact ⟨hi, ht⟩
  · have hpos := hp _ (List.getElem_mem hit)
    simp only [List.mem_flatten, List.mem_replicate]
    exact ⟨responseMessages r, ⟨by omega, rfl⟩, List.mem_map.mpr ⟨e, he, rfl⟩⟩

/-- **C113.** Clients come and go as in C96; the last one is in any state and goes on (requests and answers get lost, the simulator reports errors, events happen).  The simulator makes no response without
events.  Once as many of the further polls have succeeded as there were events waiting, and one more, all events that had happened by then have been handed over. -/
theorem C113_handed_over (d : TemplateDict) (h : EqHandler) (hh : ∀ l, h l = .ok ()) (sv0 sv sv1 sv2 : EqServer) (h0 : sv0.sent = []) (hu : sv0.unacked = false) (es evs more : List Event)
    (ms : List Message) (fails f n : Nat) (st1 st2 : EqState) (hc : Clients d h sv0 es ms fails sv) (hp : Polling d h sv evs f st1 sv1) (hl : Later d h st1 sv1 more n st2 sv2)
    (hne : ∀ r ∈ sv2.sent, r.2 ≠ []) (hn : sv1.waiting.length + 1 ≤ n) (e : Event) (he : e ∈ sv0.waiting ++ es ++ evs) :
    ∃ r ∈ sv2.sent, e ∈ r.2 ∧ e.message r.1 ∈ ms ++ st2.delivered := by
  obtain ⟨hsane, hev, times, ha⟩ := clients_met hh h0 hu hc
  obtain ⟨times1, m1, -⟩ := polling_met hh hsane hp
  obtain ⟨f2, times2, m2, p2, hn2⟩ := later_progress hh m1 hl hne
  obtain ⟨f3, hp2⟩ := later_polling hp hl
  obtain ⟨-, -, ev1⟩ := polling_server hsane hp
  obtain ⟨hpre, -, ev2⟩ := polling_server hsane hp2
  obtain ⟨all, hpos, -, hcount, hall, hlast, -⟩ := ha.join hsane hpre m2
  have hlen := hlast (List.length_pos_iff.mp (by omega))
  have hle : all.length ≤ sv2.sent.length := by omega
  rw [← hlen] at p2
  have hgot : eventsIn sv1.sent sv1.sent.length + sv1.waiting.length ≤ eventsIn sv2.sent all.length := by
    rcases p2 with p2 | p2
    · exact p2
    · have : all.length = sv2.sent.length := by omega
      rw [this] at p2 ⊢
      omega
  have hall1 : (sv0.waiting ++ es ++ evs) = sv1.sent.flatMap (·.2) ++ sv1.waiting := by rw [ev1, hev]
  have hpre1 : (sv1.sent.flatMap (·.2) ++ sv1.waiting) <+: (sv2.sent.flatMap (·.2) ++ sv2.waiting) := by
    rw [ev1, ev2, ← List.append_assoc]
    exact List.prefix_append _ _
  have hpre2 : (sv2.sent.take all.length).flatMap (·.2) <+: (sv2.sent.flatMap (·.2) ++ sv2.waiting) := by
    refine List.IsPrefix.trans ?_ (List.prefix_append _ _)
    conv => rhs; rw [← List.take_append_drop all.length sv2.sent, List.flatMap_append]
    exact List.prefix_append _ _
  have hsub : (sv1.sent.flatMap (·.2) ++ sv1.waiting) <+: (sv2.sent.take all.length).flatMap (·.2) := by
    refine List.prefix_of_prefix_length_le hpre1 hpre2 ?_
    rw [List.length_append]
    simpa [eventsIn, List.take_of_length_le] using hgot
  rw [hall1] at he
  obtain ⟨r, hr, her⟩ := List.mem_flatMap.mp (hsub.subset he)
  refine ⟨r, List.mem_of_mem_take hr, her, ?_⟩
  rw [hall]
  exact mem_handedOver hpos hle hr her

/-- What a manager does later is a continuation. -/
theorem serving_later {env : DEnv} {d : TemplateDict} {beh : SBehaviour} {fuel : Nat} {udp : SubsState} {sv0 sv1 : EqServer} {evs0 : List Event} {f0 : Nat} {st1 : BothState}
    (hp : Serving env d beh fuel udp sv0 evs0 f0 st1 sv1) {evs : List Event} {n : Nat} {st : BothState} {sv : EqServer} (hl : ServingLater env d beh fuel st1 sv1 evs n st sv) :
    ∃ f, Serving env d beh fuel udp sv0 (evs0 ++ evs) f st sv := by
  induction hl with
  | start => exact ⟨f0, by rw [List.append_nil]; exact hp⟩
  | happens e _ ih =>
    obtain ⟨f, ih⟩ := ih
    exact ⟨f, by rw [← List.append_assoc]; exact .happens e ih⟩
  | dispatcher o r _ hs ih =>
    obtain ⟨f, ih⟩ := ih
    exact ⟨f, .dispatcher o r ih hs⟩
  | poll o post r _ hs hpost hx ih =>
    obtain ⟨f, ih⟩ := ih
    exact ⟨_, .poll o post r ih hs hpost hx⟩

theorem serving_later_eq {env : DEnv} {d : TemplateDict} {beh : SBehaviour} (hq : ∀ tr cs, SProg.Quiet (beh tr cs)) {fuel : Nat} {st1 : BothState} {sv1 : EqServer}
    (hr : Registered st1.udp.ev) {evs : List Event} {n : Nat} {st : BothState} {sv : EqServer} (hl : ServingLater env d beh fuel st1 sv1 evs n st sv) :
    Registered st.udp.ev ∧ Later d (fun _ => .ok ()) st1.eq sv1 evs n st.eq sv := by
  induction hl with
  | start => exact ⟨hr, .start⟩
  | happens e _ ih => exact ⟨ih.1, .happens e ih.2⟩
  | @dispatcher evs n st st' sv o r _ hs ih =>
    simp only [stepBoth] at hs
    generalize hw : stepSubs env beh fuel st.udp (.op o) = w at hs
    obtain ⟨w, udp⟩ := w
    cases w with
    | none => cases hs
    | some w =>
      cases hs
      obtain ⟨cs, g, gd, c, -⟩ := op_calling env hq fuel st.udp udp o _ ih.1 hw
      exact ⟨c.reg, ih.2⟩
  | @poll evs n st st' sv sv' ok o post r _ hs hpost hx ih =>
    obtain ⟨e, -, cs, g, c⟩ := poll_eq hq ih.1 hs
    refine ⟨c.reg, ?_⟩
    rw [e] at hpost ⊢
    exact .poll o post ih.2 hpost hx

/-- **C113 for subscribers.** Managers come and go as in C112; the last one is in any state and goes on, and so does its dispatcher.  Once as many of the further polls have succeeded as there were events waiting,
and one more, every subscriber has been called for each event that had happened by then, if messages of its name do not also come over UDP. -/
theorem C113_called (env : DEnv) (d : TemplateDict) (beh : SBehaviour) (hq : ∀ tr cs, SProg.Quiet (beh tr cs)) (fuel : Nat) (subs : String → List Sub) (sv0 sv sv1 sv2 : EqServer)
    (h0 : sv0.sent = []) (hu : sv0.unacked = false) (es evs more : List Event) (cs : List (Call Message)) (us : List Message) (fails f n : Nat) (hosts : HostRef → Host) (names : List String)
    (hn : ∀ k, k ∉ names → subs k = []) (st1 st2 : BothState) (hm : Managers env d beh fuel subs sv0 es cs us fails sv)
    (hs : Serving env d beh fuel ⟨DState.init hosts, { names := names, subs := subs }⟩ sv evs f st1 sv1) (hl : ServingLater env d beh fuel st1 sv1 more n st2 sv2)
    (hne : ∀ r ∈ sv2.sent, r.2 ≠ []) (hw : sv1.waiting.length + 1 ≤ n) (e : Event) (he : e ∈ sv0.waiting ++ es ++ evs)
    (hname : ∀ m ∈ us ++ deliveredMessages st2.udp.d.trace, m.name ≠ e.name) :
    ∃ r ∈ sv2.sent, e ∈ r.2 ∧ ∀ s ∈ subs e.name, ⟨env.depth, e.name, s.handler, (e.message r.1, s.args), s.kwargs⟩ ∈ cs ++ st2.udp.ev.calls := by
  obtain ⟨ms, hc, hcalls⟩ := managers_clients hq hm
  have i1 := serving_inv hq hn hs
  obtain ⟨f2, hs2⟩ := serving_later hs hl
  have i2 := serving_inv hq hn hs2
  obtain ⟨r, hr, her, hdel⟩ := C113_handed_over d _ (fun _ => rfl) sv0 sv sv1 sv2 h0 hu es evs more ms fails f n st1.eq st2.eq hc i1.polling (serving_later_eq hq i1.reg hl).2 hne hw e he
  refine ⟨r, hr, her, fun s hsub => ?_⟩
  have key : ∀ l : List Message, e.message r.1 ∈ l →
      (⟨env.depth, e.name, s.handler, (e.message r.1, s.args), s.kwargs⟩ : Call Message) ∈ callsFor env.depth subs (l.filter (fun m => m.name = e.name)) := fun l hl =>
    List.mem_flatMap.mpr ⟨e.message r.1, List.mem_filter.mpr ⟨hl, by simp [show (e.message r.1).name = e.name from rfl]⟩, List.mem_map.mpr ⟨s, hsub, rfl⟩⟩
  rcases List.mem_append.mp hdel with hdel | hdel
  · have := key ms hdel
    rw [← hcalls e.name (fun m hm => hname m (List.mem_append_left _ hm))] at this
    exact List.mem_append_left _ (List.mem_filter.mp this).1
  · have := key _ hdel
    rw [← i2.calls e.name (fun m hm => hname m (List.mem_append_right _ hm))] at this
    exact List.mem_append_right _ (List.mem_filter.mp (List.mem_filter.mp this).1).1

/-- **C113, not sooner.** One successful poll for each event that waits is not enough: the first may only repeat a response that an earlier client got but did not acknowledge. -/
theorem C113_not_sooner : ∃ (sv sv1 sv2 : EqServer) (ms : List Message) (evs : List Event) (st1 st2 : EqState) (e : Event),
    Clients dispDict (fun _ => .ok ()) eqServer [] ms 2 sv ∧ Polling dispDict (fun _ => .ok ()) sv evs 0 st1 sv1 ∧ Later dispDict (fun _ => .ok ()) st1 sv1 [] 1 st2 sv2 ∧
      (∀ r ∈ sv2.sent, r.2 ≠ []) ∧ sv1.waiting.length = 1 ∧ e ∈ evs ∧ ¬ ∃ r ∈ sv2.sent, e ∈ r.2 := by
  refine ⟨eqServed, { eqServed with waiting := [⟨"Demo", .vars []⟩] }, { eqServed with waiting := [⟨"Demo", .vars []⟩] }, _, [⟨"Demo", .vars []⟩], _, _, ⟨"Demo", .vars []⟩,
    .crashed .none (eq_first (.httpError 502)), .happens ⟨"Demo", .vars []⟩ .start,
    .poll (ok := true) (.response (demoResponse 5)) (.map []) .start (by decide +kernel) (.answered _ (r := (.int 5, [demoAckEvent, demoChatEvent])) ?_ (demo_isResponse 5)), ?_, rfl,
    List.mem_singleton.mpr rfl, ?_⟩
  · rcases EqServer.register_eq { eqServed with waiting := [⟨"Demo", .vars []⟩] } (.map []) with ⟨e, -⟩ | ⟨-, m, r, h, -, h'⟩
    · rw [e]
      exact EqServer.Answers.again rfl rfl
    · cases h; cases h'
  · simp [eqServed]
  · simp [eqServed, demoAckEvent, demoChatEvent]

/-! ## Demonstration -/

/-- The simulator after `ids.length` responses, each with the two events. -/
def soonServer (ids : List Int) : EqServer := { sent := ids.map (fun i => (.int i, [demoAckEvent, demoChatEvent])), unacked := true }

theorem soon_register (ids : List Int) (i : Int) (hi : i ≠ -1) :
    ({ soonServer (ids ++ [i]) with waiting := [demoAckEvent, demoChatEvent] } : EqServer).register (pollData (.int i)) =
      { soonServer (ids ++ [i]) with waiting := [demoAckEvent, demoChatEvent], unacked := false } := by
  rcases EqServer.register_eq { soonServer (ids ++ [i]) with waiting := [demoAckEvent, demoChatEvent] } (pollData (.int i)) with ⟨-, h⟩ | ⟨e, -⟩
  · refine absurd ?_ h
    obtain ⟨m, e, hg⟩ := pollData_ack (.int i)
    refine ⟨m, (.int i, [demoAckEvent, demoChatEvent]), e, by simp [soonServer], ?_⟩
    rw [hg, saneId_iff.mp (by simp [SaneId, hi])]
    rfl
  · exact e

/-- Two more events happen, and the next poll succeeds. -/
theorem soon_more {ids : List Int} {i j : Int} (hi : i ≠ -1) (hj : j ≠ -1) (hij : i ≠ j) {evs : List Event} {n : Nat} {st0 st : BothState} {sv0 : EqServer}
    (h : ServingLater udpSubsEnv dispDict acknowledging 10 st0 sv0 evs n st (soonServer (ids ++ [i])))
    (hs : (stepBoth udpSubsEnv dispDict acknowledging 10 st (.poll (.response (demoResponse j)))).isSome = true)
    (hp : (regionThen st (.poll (.response (demoResponse j)))).eq.posts = st.eq.posts ++ [pollData (.int i)]) :
    ServingLater udpSubsEnv dispDict acknowledging 10 st0 sv0 (evs ++ [demoAckEvent] ++ [demoChatEvent]) (n + 1) (regionThen st (.poll (.response (demoResponse j)))) (soonServer (ids ++ [i] ++ [j])) := by
  obtain ⟨r, hr⟩ := regionThen_eq st _ hs
  have h2 := ServingLater.happens demoChatEvent (.happens demoAckEvent h)
  refine .poll (ok := true) _ (pollData (.int i)) r h2 hr hp (.answered _ (r := (.int j, [demoAckEvent, demoChatEvent])) ?_ (demo_isResponse j))
  have e := soon_register ids i hi
  have e0 : ({ { soonServer (ids ++ [i]) with waiting := (soonServer (ids ++ [i])).waiting ++ [demoAckEvent] } with
      waiting := ({ soonServer (ids ++ [i]) with waiting := (soonServer (ids ++ [i])).waiting ++ [demoAckEvent] } : EqServer).waiting ++ [demoChatEvent] } : EqServer) =
      { soonServer (ids ++ [i]) with waiting := [demoAckEvent, demoChatEvent] } := rfl
  rw [e0, e]
  have hn := EqServer.Answers.new (sv := { soonServer (ids ++ [i]) with waiting := [demoAckEvent, demoChatEvent], unacked := false }) (.int j) 2 rfl (by simp [SaneId, hj])
    (by
      intro r hr
      simp [soonServer] at hr
      rw [← hr]
      simp [hij])
  have e1 : soonServer (ids ++ [i] ++ [j]) = { waiting := [], sent := (soonServer (ids ++ [i])).sent ++ [(.int j, [demoAckEvent, demoChatEvent])], unacked := true } := by
    simp [soonServer]
  rw [e1]
  exact hn

def soon1 : BothState := regionThen region0 (.poll (.response (demoResponse 5)))
def soon2 : BothState := regionThen soon1 (.poll (.response (demoResponse 6)))
def soon3 : BothState := regionThen soon2 (.poll (.response (demoResponse 7)))

theorem soon_first : ServingLater udpSubsEnv dispDict acknowledging 10 region0 eqServer [] 1 soon1 (soonServer ([] ++ [5])) := by
  obtain ⟨r2, h2⟩ := regionThen_eq region0 (.poll (.response (demoResponse 5))) (by decide +kernel)
  refine .poll (ok := true) _ (.map []) r2 .start h2 (by decide +kernel) (.answered _ (r := (.int 5, [demoAckEvent, demoChatEvent])) ?_ (demo_isResponse 5))
  have : eqServer.register (.map []) = eqServer := by
    rcases eqServer.register_eq (.map []) with ⟨e, -⟩ | ⟨-, m, r, h, h', -⟩
    · exact e
    · cases h'
  rw [this]
  exact EqServer.Answers.new (.int 5) 2 rfl (by simp [SaneId]) (by intro r h; cases h)

/-- The hypotheses of `C113_called`: two events wait, and three polls succeed. -/
example : ∃ more sv2, ServingLater udpSubsEnv dispDict acknowledging 10 region0 eqServer more 3 soon3 sv2 ∧ (∀ r ∈ sv2.sent, r.2 ≠ []) ∧ eqServer.waiting.length + 1 ≤ 3 ∧
    Managers udpSubsEnv dispDict acknowledging 10 bothDemo.subs eqServer [] [] [] 0 eqServer ∧
    Serving udpSubsEnv dispDict acknowledging 10 ⟨DState.init dispHosts, { names := bothDemo.names, subs := bothDemo.subs }⟩ eqServer [] 0 region0 eqServer ∧
    deliveredMessages soon3.udp.d.trace = [] := by
  refine ⟨_, _, soon_more (by decide) (by decide) (by decide) (soon_more (by decide) (by decide) (by decide) soon_first (by decide +kernel) (by decide +kernel)) (by decide +kernel)
    (by decide +kernel), ?_, by decide, .none, .start, by decide +kernel⟩
  intro r hr
  simp [soonServer] at hr
  rcases hr with rfl | rfl | rfl <;> simp

/-- Those of `C113_handed_over`. -/
example : Clients dispDict (fun _ => .ok ()) eqServer [] [] 0 eqServer ∧ Polling dispDict (fun _ => .ok ()) eqServer [] 0 region0.eq eqServer ∧
    ∃ more sv2, Later dispDict (fun _ => .ok ()) region0.eq eqServer more 3 soon3.eq sv2 ∧ (∀ r ∈ sv2.sent, r.2 ≠ []) := by
  have hq : ∀ tr cs, SProg.Quiet (acknowledging tr cs) := by
    intro tr cs
    unfold acknowledging
    split
    · split
      · exact fun _ => trivial
      · trivial
    · trivial
  have hn : Registered region0.udp.ev := by
    intro n hn
    simp only [region0, bothDemo, List.mem_cons, List.not_mem_nil, or_false, not_or] at hn ⊢
    rw [if_neg hn.1, if_neg hn.2.1, if_neg hn.2.2]
  refine ⟨.none, .start, _, _, (serving_later_eq hq hn (soon_more (by decide) (by decide) (by decide) (soon_more (by decide) (by decide) (by decide) soon_first (by decide +kernel)
    (by decide +kernel)) (by decide +kernel) (by decide +kernel))).2, ?_⟩
  intro r hr
  simp [soonServer] at hr
  rcases hr with rfl | rfl | rfl <;> simp

end Pyogp
