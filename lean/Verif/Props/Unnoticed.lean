import Verif.Spec.Unnoticed
import Verif.Props.Callbacks
import Verif.Props.EqSubscribers

/-!
# C119: handlers that do nothing, in events and in the event queue
-/

namespace Pyogp
open Spec

variable {α : Type}

theorem leaveOut_register (q : Sub → Bool) (st : EvState α) (n : String) : leaveOut q (register st n) = register (leaveOut q st) n := by
  simp only [leaveOut, register]
  by_cases h : n ∈ st.names <;> simp only [h, if_true, if_false]

theorem leaveOut_add {q : Sub → Bool} {s : Sub} (hq : q s = false) (st : EvState α) (n : String) :
    leaveOut q (st.setSubs n (eventSubscribe (st.subs n) s)) = (leaveOut q st).setSubs n (eventSubscribe ((leaveOut q st).subs n) s) := by
  simp only [leaveOut, EvState.setSubs, eventSubscribe, EvState.mk.injEq, true_and, and_true]
  funext k
  split
  · simp [List.filter_append, hq]
  · rfl

theorem leaveOut_idle {q : Sub → Bool} {s : Sub} (hq : q s = true) (st : EvState α) (n : String) :
    leaveOut q (st.setSubs n (eventSubscribe (st.subs n) s)) = leaveOut q st := by
  simp only [leaveOut, EvState.setSubs, eventSubscribe, EvState.mk.injEq, true_and, and_true]
  funext k
  split
  · rename_i hk; subst hk; simp [List.filter_append, hq]
  · rfl

theorem leaveOut_cancel (q : Sub → Bool) (s : Sub) (st : EvState α) (n : String) :
    leaveOut q (st.setSubs n (eventUnsubscribe (st.subs n) s).2) = (leaveOut q st).setSubs n (eventUnsubscribe ((leaveOut q st).subs n) s).2 := by
  simp only [leaveOut, EvState.setSubs, EvState.mk.injEq, true_and, and_true]
  funext k
  split
  · simp only [eventUnsubscribe]
    have he : ∀ l : List Sub, (l.erase s).filter (fun s => !q s) = (l.filter (fun s => !q s)).erase s := fun l => (List.erase_filter ..).symm
    split
    · rename_i h1
      split
      · exact he _
      · rename_i h2
        rw [he, List.erase_of_not_mem h2]
    · rename_i h1
      split
      · rename_i h2; exact absurd (List.mem_of_mem_filter h2) h1
      · rfl
  · rfl

/-- A way of firing events that these subscribers do not change. -/
def FireIdle (q : Sub → Bool) (fire fire0 : String → α → EvState α → Option (Py Unit) × EvState α) : Prop :=
  ∀ ev x st r st1, fire ev x st = (some r, st1) → (∀ n, st.subs n <+: st1.subs n) ∧ fire0 ev x (leaveOut q st) = (some r, leaveOut q st1)

theorem run_idle {q : Sub → Bool} {fire fire0 : String → α → EvState α → Option (Py Unit) × EvState α} (hf : FireIdle q fire fire0) {p : EvProg α} (hp : CancelsNone q p) :
    ∀ (st st1 : EvState α) (r : Py Unit), p.run fire st = (some r, st1) → (∀ n, st.subs n <+: st1.subs n) ∧ p.run fire0 (leaveOut q st) = (some r, leaveOut q st1) := by
  induction hp with
  | done => intro st st1 r h; cases h; exact ⟨fun _ => List.prefix_refl _, rfl⟩
  | raise e => intro st st1 r h; cases h; exact ⟨fun _ => List.prefix_refl _, rfl⟩
  | subscribe ev s k hq _ ih =>
    intro st st1 r h
    obtain ⟨h1, h2⟩ := ih _ st1 r h
    rw [leaveOut_add hq] at h2
    refine ⟨fun n => List.IsPrefix.trans ?_ (h1 n), h2⟩
    simp only [EvState.setSubs, eventSubscribe]
    split
    · rename_i hn; subst hn; exact List.prefix_append _ _
    · exact List.prefix_refl _
  | register ev k _ ih =>
    intro st st1 r h
    obtain ⟨h1, h2⟩ := ih _ st1 r h
    rw [leaveOut_register] at h2
    refine ⟨fun n => List.IsPrefix.trans ?_ (h1 n), h2⟩
    simp only [Pyogp.register]
    split <;> exact List.prefix_refl _
  | fire ev x k _ ih =>
    intro st st1 r h
    unfold EvProg.run at h ⊢
    generalize hy : fire ev x st = y at h
    obtain ⟨y, st2⟩ := y
    cases y with
    | none => cases h
    | some y =>
      obtain ⟨h1, h2⟩ := hf ev x st y st2 hy
      obtain ⟨h3, h4⟩ := ih y st2 st1 r h
      rw [h2]
      exact ⟨fun n => (h1 n).trans (h3 n), h4⟩

theorem notifyLoop_some {beh : Behaviour α} {fire : String → α → EvState α → Option (Py Unit) × EvState α} {level : Nat} {ev : String} {x : α} {fuel i : Nat} {st : EvState α} {s : Sub}
    (hi : (st.subs ev)[i]? = some s) {st2 : EvState α} (h2 : st.log ⟨level, ev, s.handler, (x, s.args), s.kwargs⟩ = st2) :
    notifyLoop beh fire level ev x (fuel + 1) i st =
      (match (beh st2.calls).run fire st2 with
      | (some (.ok _), st) => notifyLoop beh fire level ev x fuel (i + 1) st
      | (some (.error e), st) => (some (.error e), st)
      | (none, st) => (none, st)) := by
  subst h2
  conv => lhs; unfold notifyLoop
  simp only [hi]
  rfl

theorem loop_idle {q : Sub → Bool} {beh beh0 : Behaviour α} (hu : DoesNothing q beh beh0) {fire fire0 : String → α → EvState α → Option (Py Unit) × EvState α} (hf : FireIdle q fire fire0)
    (level : Nat) (ev : String) (x : α) :
    ∀ (fuel fuel0 i : Nat) (st st1 : EvState α) (r : Py Unit), fuel ≤ fuel0 → notifyLoop beh fire level ev x fuel i st = (some r, st1) →
    (∀ n, st.subs n <+: st1.subs n) ∧
    notifyLoop beh0 fire0 level ev x fuel0 (((st.subs ev).take i).filter (fun s => !q s)).length (leaveOut q st) = (some r, leaveOut q st1)
  | 0, _, _, _, _, _, _, h => by cases h
  | fuel + 1, 0, _, _, _, _, hl, _ => by omega
  | fuel + 1, fuel0 + 1, i, st, st1, r, hl, h => by
    cases hi : (st.subs ev)[i]? with
    | none =>
      unfold notifyLoop at h
      simp only [hi] at h
      cases h
      refine ⟨fun _ => List.prefix_refl _, ?_⟩
      unfold notifyLoop
      have : ((leaveOut q st).subs ev)[(((st.subs ev).take i).filter (fun s => !q s)).length]? = none := filter_at _ _ _ hi
      rw [this]
    | some s =>
      obtain ⟨h1, h2⟩ := filter_at_some (fun s => !q s) _ _ _ hi
      have hil : i + 1 ≤ (st.subs ev).length := (List.getElem?_eq_some_iff.mp hi).1
      generalize hst2 : st.log ⟨level, ev, s.handler, (x, s.args), s.kwargs⟩ = st2
      rw [notifyLoop_some hi hst2] at h
      have hsub : st2.subs = st.subs := by rw [← hst2]; rfl
      have hcalls : st2.calls = st.calls ++ [⟨level, ev, s.handler, (x, s.args), s.kwargs⟩] := by rw [← hst2]; rfl
      cases hq : q s with
      | true =>
        rw [hcalls, hu.nothing _ ⟨level, ev, s.handler, (x, s.args), s.kwargs⟩ hq] at h
        simp only [EvProg.run] at h
        obtain ⟨h3, h4⟩ := loop_idle hu hf level ev x fuel (fuel0 + 1) (i + 1) st2 st1 r (by omega) h
        rw [hsub] at h3
        refine ⟨h3, ?_⟩
        have e : leaveOut q st2 = leaveOut q st := by
          rw [← hst2]
          simp [leaveOut, EvState.log, List.filter_append, causeOf, hq]
        rw [hsub, h2, e] at h4
        simpa [hq] using h4
      | false =>
        have e : leaveOut q st2 = (leaveOut q st).log ⟨level, ev, s.handler, (x, s.args), s.kwargs⟩ := by
          rw [← hst2]
          simp [leaveOut, EvState.log, List.filter_append, causeOf, hq]
        have e2 : (leaveOut q st2).calls = (st.calls ++ [(⟨level, ev, s.handler, (x, s.args), s.kwargs⟩ : Call α)]).filter (fun c => !q (causeOf c)) := by
          rw [← hcalls]; rfl
        generalize hx : (beh st2.calls).run fire st2 = y at h
        obtain ⟨y, st3⟩ := y
        have : ((leaveOut q st).subs ev)[(((st.subs ev).take i).filter (fun s => !q s)).length]? = some s := h1 (by rw [hq]; rfl)
        rw [notifyLoop_some this e.symm]
        cases y with
        | none => cases h
        | some y =>
          obtain ⟨h3, h4⟩ := run_idle hf (hu.cancels _) _ _ _ hx
          rw [hcalls, hu.others _ ⟨level, ev, s.handler, (x, s.args), s.kwargs⟩ hq, ← e2] at h4
          rw [h4]
          rw [hsub] at h3
          cases y with
          | error er => cases h; exact ⟨h3, rfl⟩
          | ok u =>
            obtain ⟨h5, h6⟩ := loop_idle hu hf level ev x fuel fuel0 (i + 1) st3 st1 r (by omega) h
            refine ⟨fun n => (h3 n).trans (h5 n), ?_⟩
            obtain ⟨t, ht⟩ := h3 ev
            rw [← ht, List.take_append_of_le_length hil, h2] at h6
            simpa [hq] using h6

theorem notify_idle {q : Sub → Bool} {beh beh0 : Behaviour α} (hu : DoesNothing q beh beh0) (fuel : Nat) : ∀ level, FireIdle q (notifyAt beh fuel level) (notifyAt beh0 fuel level)
  | 0 => by intro ev x st r st1 h; cases h; exact ⟨fun _ => List.prefix_refl _, rfl⟩
  | level + 1 => by
    intro ev x st r st1 h
    have := loop_idle hu (notify_idle hu fuel level) (level + 1) ev x fuel fuel 0 st st1 r (Nat.le_refl _) h
    rw [List.take_zero] at this
    exact this

/-- **C119, events.** Subscribers of an event that do nothing are not noticed: whatever the others do (raise, fire this or other events, register names, subscribe further handlers), as long as they cancel no subscription while
being called, the notification has the same result, makes the same other calls in the same order, and the other subscriptions and the registered names come out the same. -/
theorem C119_events {q : Sub → Bool} {beh beh0 : Behaviour α} (hu : DoesNothing q beh beh0) (fuel level : Nat) (ev : String) (x : α) (st st1 : EvState α) (r : Py Unit)
    (h : notifyAt beh fuel level ev x st = (some r, st1)) : notifyAt beh0 fuel level ev x (leaveOut q st) = (some r, leaveOut q st1) :=
  (notify_idle hu fuel level ev x st r st1 h).2

/-- **C119, messages.** So for a message handed to a message handler. -/
theorem C119_messages {q : Sub → Bool} {beh beh0 : Behaviour α} (hu : DoesNothing q beh beh0) (fuel level : Nat) (name : String) (x : α) (st st1 : EvState α) (r : Py Unit)
    (h : handleMessage beh fuel (level + 1) name x st = (some r, st1)) : handleMessage beh0 fuel (level + 1) name x (leaveOut q st) = (some r, leaveOut q st1) := by
  unfold handleMessage at h ⊢
  split at h
  · rename_i hn
    rw [if_pos (show name ∈ (leaveOut q st).names from hn)]
    split at h
    · generalize hx : notifyAt beh fuel (level + 1) name x st = y at h
      obtain ⟨y, st2⟩ := y
      cases y with
      | none => cases h
      | some y =>
        have h2 := C119_events hu fuel (level + 1) name x st st2 y hx
        split
        · rw [h2]
          cases y with
          | error e => cases e <;> cases h <;> rfl
          | ok u => cases h; rfl
        · rename_i hl
          have hnil : (leaveOut q st).subs name = [] := List.length_eq_zero_iff.mp (by omega)
          cases fuel with
          | zero => cases hx
          | succ fuel =>
            unfold notifyAt notifyLoop at h2
            rw [hnil] at h2
            simp only [List.getElem?_nil] at h2
            injection h2 with h2 h3
            injection h2 with h2
            subst h2
            cases h
            rw [h3]
    · rename_i hl
      cases h
      have : (leaveOut q st).subs name = [] := by
        have : st.subs name = [] := List.length_eq_zero_iff.mp (by omega)
        show (st.subs name).filter _ = []
        rw [this]; rfl
      rw [this]
      rfl
  · rename_i hn
    rw [if_neg (show ¬ name ∈ (leaveOut q st).names from hn)]
    cases h
    rfl

/-! ## The event queue -/

theorem leaveOut_apply (q : Sub → Bool) (st : EvState Message) (o : SubOp) : leaveOut q (SubOp.apply st o) = SubOp.apply (leaveOut q st) (onlyRegister q o) := by
  cases o with
  | register n => exact leaveOut_register q st n
  | unsubscribe n s => exact leaveOut_cancel q s st n
  | subscribe n s =>
    have hr : ∀ k, (register st n).subs k = st.subs k := fun k => by simp only [register]; split <;> rfl
    cases hq : q s with
    | true =>
      simp only [onlyRegister, hq, if_true, SubOp.apply]
      rw [← leaveOut_register, ← leaveOut_idle hq (register st n) n, hr]
    | false =>
      simp only [onlyRegister, hq, Bool.false_eq_true, if_false, SubOp.apply]
      have e : (leaveOut q st).subs n = (leaveOut q (register st n)).subs n := by
        show (st.subs n).filter _ = ((register st n).subs n).filter _
        rw [hr]
      rw [← leaveOut_register, ← hr n, leaveOut_add hq, e]

theorem leaveOut_applies (q : Sub → Bool) : ∀ (ops : List SubOp) (st : EvState Message), leaveOut q (ops.foldl SubOp.apply st) = (ops.map (onlyRegister q)).foldl SubOp.apply (leaveOut q st)
  | [], _ => rfl
  | o :: ops, st => by rw [List.map_cons, List.foldl_cons, List.foldl_cons, leaveOut_applies q ops, leaveOut_apply]

theorem deliver_idle {q : Sub → Bool} {beh beh0 : Behaviour Message} (hu : DoesNothing q beh beh0) (fuel level : Nat) : ∀ (ms : List Message) (st st1 : EqSubs),
    deliverSubs beh fuel (level + 1) ms st = some st1 → deliverSubs beh0 fuel (level + 1) ms (leaveOutEq q st) = some (leaveOutEq q st1)
  | [], _, _, h => by cases h; rfl
  | m :: ms, st, st1, h => by
    unfold deliverSubs at h ⊢
    generalize hy : handleMessage beh fuel (level + 1) m.name m st.ev = y at h
    obtain ⟨y, ev⟩ := y
    cases y with
    | none => cases h
    | some y =>
      have h2 := C119_messages hu fuel level m.name m st.ev ev y hy
      have e : (leaveOutEq q st).ev = leaveOut q st.ev := rfl
      rw [e, h2]
      cases y with
      | error er => cases h; rfl
      | ok u => exact deliver_idle hu fuel level ms _ _ h

theorem parse_idle {q : Sub → Bool} {beh beh0 : Behaviour Message} (hu : DoesNothing q beh beh0) (d : TemplateDict) (fuel level : Nat) (st st1 : EqSubs) (data : Llsd)
    (h : parseResultSubs d beh fuel (level + 1) st data = some st1) : parseResultSubs d beh0 fuel (level + 1) (leaveOutEq q st) data = some (leaveOutEq q st1) := by
  unfold parseResultSubs at h ⊢
  have e : (leaveOutEq q st).eq = st.eq := rfl
  rw [e]
  split at h
  · rename_i hd; rw [if_pos hd]; cases h; rfl
  · rename_i hd
    rw [if_neg hd]
    generalize decodeEqResult d st.eq.lastId data = y at h ⊢
    cases y with
    | error er => cases h; rfl
    | ok ms => exact deliver_idle hu fuel level ms _ _ h

theorem poll_idle {q : Sub → Bool} {beh beh0 : Behaviour Message} (hu : DoesNothing q beh beh0) (d : TemplateDict) (fuel level : Nat) (st st1 : EqSubs) (p : List SubOp × PollOutcome)
    (h : eqPollSubs d beh fuel (level + 1) st p = some st1) : eqPollSubs d beh0 fuel (level + 1) (leaveOutEq q st) (p.1.map (onlyRegister q), p.2) = some (leaveOutEq q st1) := by
  have key : ∀ (eq : EqState) (ev : EvState Message) (rs : List (Py Unit)),
      (if eq.result = .undef then parseResultSubs d beh fuel (level + 1) { eq := { eq with lastId := .int (-1) }, ev := ev, results := rs } eq.result
        else match llsdItem eq.result "id" with
          | .ok i => parseResultSubs d beh fuel (level + 1) { eq := { eq with lastId := i }, ev := ev, results := rs } eq.result
          | .error _ => some { eq := eq, ev := ev, results := rs }) = some st1 →
      (if eq.result = .undef then parseResultSubs d beh0 fuel (level + 1) { eq := { eq with lastId := .int (-1) }, ev := leaveOut q ev, results := rs } eq.result
        else match llsdItem eq.result "id" with
          | .ok i => parseResultSubs d beh0 fuel (level + 1) { eq := { eq with lastId := i }, ev := leaveOut q ev, results := rs } eq.result
          | .error _ => some { eq := eq, ev := leaveOut q ev, results := rs }) = some (leaveOutEq q st1) := by
    intro eq ev rs h
    split at h
    · rename_i hd
      rw [if_pos hd]
      exact parse_idle hu d fuel level _ _ _ h
    · rename_i hd
      rw [if_neg hd]
      cases hi : llsdItem eq.result "id" with
      | error er => rw [hi] at h; cases h; rfl
      | ok i => rw [hi] at h; exact parse_idle hu d fuel level _ _ _ h
  obtain ⟨ops, o⟩ := p
  have := key _ _ _ h
  rw [leaveOut_applies] at this
  exact this

theorem polls_idle {q : Sub → Bool} {beh beh0 : Behaviour Message} (hu : DoesNothing q beh beh0) (d : TemplateDict) (fuel level : Nat) : ∀ (ps : List (List SubOp × PollOutcome)) (st st1 : EqSubs),
    eqPollsSubs d beh fuel (level + 1) ps st = some st1 →
    eqPollsSubs d beh0 fuel (level + 1) (ps.map (fun p => (p.1.map (onlyRegister q), p.2))) (leaveOutEq q st) = some (leaveOutEq q st1)
  | [], _, _, h => by cases h; rfl
  | p :: ps, st, st1, h => by
    rw [List.map_cons]
    unfold eqPollsSubs at h ⊢
    generalize hy : eqPollSubs d beh fuel (level + 1) st p = y at h
    cases y with
    | none => cases h
    | some y =>
      rw [poll_idle hu d fuel level st y p hy]
      exact polls_idle hu d fuel level ps y st1 h

/-- **C119, event queue.** The event queue client does not notice them either: it posts and hands over the same, returns or raises the same, and the others are called in the same way, whatever other coroutines do to the
subscriptions meanwhile. -/
theorem C119_event_queue {q : Sub → Bool} {beh beh0 : Behaviour Message} (hu : DoesNothing q beh beh0) (d : TemplateDict) (fuel level : Nat) (polls : List (List SubOp × PollOutcome)) (final : PollOutcome)
    (st st1 : EqSubs) (r : Py Unit) (h : processRegionSubs d beh fuel (level + 1) polls final st = some (r, st1)) :
    processRegionSubs d beh0 fuel (level + 1) (polls.map (fun p => (p.1.map (onlyRegister q), p.2))) final (leaveOutEq q st) = some (r, leaveOutEq q st1) := by
  unfold processRegionSubs at h ⊢
  generalize hy : eqPollsSubs d beh fuel (level + 1) polls { st with eq := { st.eq with running := true } } = y at h
  cases y with
  | none => cases h
  | some y =>
    have h2 := polls_idle hu d fuel level polls _ _ hy
    have e : leaveOutEq q { st with eq := { st.eq with running := true } } = { leaveOutEq q st with eq := { (leaveOutEq q st).eq with running := true } } := rfl
    rw [e] at h2
    rw [h2]
    have e1 : (leaveOutEq q y).eq = y.eq := rfl
    simp only [e1] at h ⊢
    split at h
    · rename_i hd
      rw [if_pos hd]
      cases h; rfl
    · rename_i hd
      rw [if_neg hd]
      cases final with
      | response v => cases h; rfl
      | failure er => cases h; rfl

/-! ## The callbacks of `Helpers` -/

theorem watcherEv_done {which : Nat → Option Callback} {beh : Behaviour Message} (cs : List (Call Message)) (c : Call Message) (h : watcher which (causeOf c) = true) :
    withCallbacksEv which beh (cs ++ [c]) = .done := by
  unfold withCallbacksEv
  rw [getLast?_snoc]
  simp only [watcher, causeOf, Bool.and_eq_true, Bool.or_eq_true, beq_iff_eq] at h
  obtain ⟨h1, h2⟩ := h
  rcases h1 with h1 | h1 <;> simp only [h1, Callback.evProg, Callback.run, h2, if_true]

theorem callbacksEv_idle {which : Nat → Option Callback} {beh : Behaviour Message} (hb : ∀ cs c, watcher which (causeOf c) = false → beh (cs ++ [c]) = beh ((cs ++ [c]).filter (fun c => !watcher which (causeOf c))))
    (hk : ∀ cs, CancelsNone (watcher which) (beh cs)) : DoesNothing (watcher which) (withCallbacksEv which beh) (withCallbacksEv which beh) where
  nothing := fun cs c h => watcherEv_done cs c h
  others := by
    intro cs c h
    have e : ((cs ++ [c]).filter (fun c => !watcher which (causeOf c))) = cs.filter (fun c => !watcher which (causeOf c)) ++ [c] := by
      rw [List.filter_append]; simp [h]
    unfold withCallbacksEv
    rw [e, getLast?_snoc, getLast?_snoc]
    simp only
    cases which c.handler with
    | none => rw [hb cs c h, e]
    | some cb => rfl
  cancels := by
    intro cs
    unfold withCallbacksEv
    cases cs.getLast? with
    | none => exact hk cs
    | some c =>
      simp only
      cases which c.handler with
      | none => exact hk cs
      | some cb =>
        simp only [Callback.evProg]
        split
        · exact .done
        · exact .raise _

/-- **C119, watching.** So with `log_event_queue_data` and `null_packet_handler`, each subscribed with one object. -/
theorem C119_watching (which : Nat → Option Callback) (beh : Behaviour Message) (hb : ∀ cs c, watcher which (causeOf c) = false → beh (cs ++ [c]) = beh ((cs ++ [c]).filter (fun c => !watcher which (causeOf c))))
    (hk : ∀ cs, CancelsNone (watcher which) (beh cs)) (d : TemplateDict) (fuel level : Nat) (polls : List (List SubOp × PollOutcome)) (final : PollOutcome) (st st1 : EqSubs) (r : Py Unit)
    (h : processRegionSubs d (withCallbacksEv which beh) fuel (level + 1) polls final st = some (r, st1)) :
    processRegionSubs d (withCallbacksEv which beh) fuel (level + 1) (polls.map (fun p => (p.1.map (onlyRegister (watcher which)), p.2))) final (leaveOutEq (watcher which) st) =
      some (r, leaveOutEq (watcher which) st1) :=
  C119_event_queue (callbacksEv_idle hb hk) d fuel level polls final st st1 r h

/-- **C119, subscribed without an object.** One of the three functions that is first in the list of a name but not subscribed with exactly one object raises `TypeError`: nobody after it is called, and the messages after
this one in the same response are not handed over. -/
theorem C119_raises (which : Nat → Option Callback) (beh : Behaviour Message) (fuel level : Nat) (m : Message) (ms : List Message) (st : EqSubs) (s : Sub) (rest : List Sub) (cb : Callback)
    (hn : m.name ∈ st.ev.names) (hs : st.ev.subs m.name = s :: rest) (hc : which s.handler = some cb)
    (hargs : ¬ ((s.args.length = 1 ∧ s.kwargs = []) ∨ (s.args = [] ∧ ∃ v, s.kwargs = [("_object", v)]))) :
    deliverSubs (withCallbacksEv which beh) (fuel + 1) (level + 1) (m :: ms) st =
      some ⟨{ st.eq with delivered := st.eq.delivered ++ [m] }, st.ev.log ⟨level + 1, m.name, s.handler, (m, s.args), s.kwargs⟩, st.results ++ [.error .typeError]⟩ := by
  have hb : Callback.binds s.args s.kwargs = false := by
    rw [Bool.eq_false_iff]
    intro h
    apply hargs
    simp only [Callback.binds, Bool.or_eq_true, Bool.and_eq_true, beq_iff_eq, List.isEmpty_iff] at h
    refine h.imp id (fun h => ⟨h.1, ?_⟩)
    obtain ⟨_, h⟩ := h
    rcases hk : s.kwargs with _ | ⟨⟨a, v⟩, _ | ⟨b, l⟩⟩
    · rw [hk] at h; cases h
    · rw [hk] at h
      simp only [List.map_cons, List.map_nil, List.cons.injEq, and_true] at h
      exact ⟨v, by rw [h]⟩
    · rw [hk] at h; simp at h
  have hp : withCallbacksEv which beh (st.ev.log ⟨level + 1, m.name, s.handler, (m, s.args), s.kwargs⟩).calls = .raise .typeError := by
    show withCallbacksEv which beh (st.ev.calls ++ [_]) = _
    unfold withCallbacksEv
    rw [getLast?_snoc]
    simp only [hc, Callback.evProg]
    cases cb <;> simp only [Callback.run, hb, Bool.false_eq_true, if_false]
  have hi : (st.ev.subs m.name)[0]? = some s := by rw [hs]; rfl
  unfold deliverSubs handleMessage
  rw [if_pos hn, if_pos (by rw [hs]; exact Nat.succ_pos _)]
  unfold notifyAt
  rw [notifyLoop_some hi rfl, hp]
  rfl

/-! ## Concrete cases -/

/-- Handler 4 subscribes handler 5 to invitations and fires another event, to which handler 6 is subscribed. -/
def busy : Behaviour Message := fun cs =>
  match cs.getLast? with
  | some c => if c.handler = 4 then .subscribe "ChatterBoxInvitation" ⟨5, [], []⟩ (.fire "Other" c.args.1 fun _ => .done) else .done
  | none => .done

/-- `null_packet_handler` and `log_event_queue_data` around handler 4, and in front of handler 6. -/
def watchedEvents : EvState Message where
  names := ["PacketAck", "ChatterBoxInvitation"]
  subs := fun n => if n = "PacketAck" then [⟨1, [7], []⟩, ⟨4, [], []⟩, ⟨3, [], [("_object", 8)]⟩] else if n = "Other" then [⟨3, [7], []⟩, ⟨6, [], []⟩] else []

/-- The conditions of `C119_watching`, with subscriptions of watchers by other coroutines, and the calls with and without watchers. -/
example :
    let polls : List (List SubOp × PollOutcome) := [([], .response (demoResponse 5)), ([.subscribe "ChatterBoxInvitation" ⟨3, [9], []⟩, .unsubscribe "PacketAck" ⟨1, [7], []⟩], .response (demoResponse 6))]
    (∀ cs c, watcher helperCallbacks (causeOf c) = false → busy (cs ++ [c]) = busy ((cs ++ [c]).filter (fun c => !watcher helperCallbacks (causeOf c)))) ∧
    (∀ cs, CancelsNone (watcher helperCallbacks) (busy cs)) ∧
    ((processRegionSubs dispDict (withCallbacksEv helperCallbacks busy) 10 3 polls (.response .undef) { ev := watchedEvents }).map (fun r => (r.2.ev.calls.map (·.handler), r.2.eq.lastId)) =
      some ([1, 4, 3, 6, 3, 5, 4, 3, 6, 3, 5, 3, 5], .int 6)) ∧
    ((processRegionSubs dispDict (withCallbacksEv helperCallbacks busy) 10 3 (polls.map (fun p => (p.1.map (onlyRegister (watcher helperCallbacks)), p.2))) (.response .undef)
        (leaveOutEq (watcher helperCallbacks) { ev := watchedEvents })).map (fun r => (r.2.ev.calls.map (·.handler), r.2.eq.lastId)) =
      some ([4, 6, 5, 4, 6, 5, 5], .int 6)) := by
  refine ⟨?_, ?_, by decide +kernel, by decide +kernel⟩
  · intro cs c h
    have e : ((cs ++ [c]).filter (fun c => !watcher helperCallbacks (causeOf c))) = cs.filter (fun c => !watcher helperCallbacks (causeOf c)) ++ [c] := by
      rw [List.filter_append]; simp [h]
    rw [e]
    unfold busy
    rw [getLast?_snoc, getLast?_snoc]
  · intro cs
    unfold busy
    split
    · split
      · exact .subscribe _ _ _ (by decide) (.fire _ _ _ fun _ => .done)
      · exact .done
    · exact .done

/-- `C119_raises`: `log_event_queue_data` subscribed without an object keeps the rest of the response from being handed over. -/
example : (processRegionSubs dispDict (withCallbacksEv helperCallbacks busy) 10 3 [([], .response (demoResponse 5))] (.response .undef)
      { ev := { watchedEvents with subs := fun n => if n = "PacketAck" then [⟨3, [], []⟩, ⟨4, [], []⟩] else [⟨6, [], []⟩] } }).map
      (fun r => (r.2.ev.calls.map (·.handler), r.2.eq.delivered.map (·.name), r.2.results)) = some ([3], ["PacketAck"], [.error .typeError]) := by decide +kernel

end Pyogp
