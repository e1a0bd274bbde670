import Verif.Props.Overlap
import Verif.Spec.OverlapAlone

/-!
# C115: notifications that do not overlap
-/

namespace Pyogp
open Spec
variable {α : Type}

theorem Spec.Alone.now {limit : Nat} {cb : List (CoCall α) → EvProg α} {j : Nat} {co : CoState α} {st : EvState α} {c : Coro α} (hs : SameSoFar st co) (hc : co.coros[j]? = some c) :
    Alone limit cb j co st c.cur c.stack := by
  refine ⟨0, c.started, co, rfl, hs, ?_⟩
  obtain ⟨h1, h2⟩ := List.getElem?_eq_some_iff.mp hc
  rw [← h2, List.set_getElem_self]

/-- First some steps, then more. -/
theorem Spec.Alone.andThen {limit : Nat} {cb : List (CoCall α) → EvProg α} {j : Nat} {co : CoState α} {st st' : EvState α} {cur cur' : CoProg α} {stack stack' : List (CoFrame α)}
    (hj : j < co.coros.length) (h : Alone limit cb j co st cur stack)
    (h' : ∀ co' m, SameSoFar st co' → co'.coros[j]? = some ⟨cur, stack, m⟩ → Alone limit cb j co' st' cur' stack') : Alone limit cb j co st' cur' stack' := by
  obtain ⟨n, m, co1, h1, h2, h3⟩ := h
  have h3' : co1.coros[j]? = some ⟨cur, stack, m⟩ := by rw [h3, List.getElem?_set_self hj]
  obtain ⟨n', m', co2, h4, h5, h6⟩ := h' co1 m h2 h3'
  refine ⟨n + n', m', co2, ?_, h5, ?_⟩
  · rw [← List.replicate_append_replicate, coRun, List.foldl_append]
    unfold coRun at h1 h4
    rw [h1, h4]
  · rw [h6, h3, List.set_set]

/-- One step. -/
theorem Spec.Alone.step {limit : Nat} {cb : List (CoCall α) → EvProg α} {j : Nat} {co : CoState α} {st : EvState α} {cur : CoProg α} {stack : List (CoFrame α)} {m : Nat}
    (hs : SameSoFar st (coStep limit (fun tr => asCo (cb (allCalls tr))) co j))
    (hc : (coStep limit (fun tr => asCo (cb (allCalls tr))) co j).coros = co.coros.set j ⟨cur, stack, m⟩) : Alone limit cb j co st cur stack :=
  ⟨1, m, _, rfl, hs, hc⟩

theorem allCalls_snoc (tr : List (CoEv α)) (e : CoEv α) : allCalls (tr ++ [e]) = allCalls tr ++ allCalls [e] := List.filterMap_append

theorem lt_of_getElem? {β : Type} {l : List β} {j : Nat} {c : β} (h : l[j]? = some c) : j < l.length := (List.getElem?_eq_some_iff.mp h).1

/-- A program, when firing an event is as it should be. -/
theorem run_alone {limit : Nat} {cb : List (CoCall α) → EvProg α} {j : Nat} {stack : List (CoFrame α)} {fire : String → α → EvState α → Option (Py Unit) × EvState α}
    (hfire : ∀ ev x (st st' : EvState α) r, fire ev x st = (some r, st') → ∀ (co : CoState α) k m, SameSoFar st co → co.coros[j]? = some ⟨.notify ev x k, stack, m⟩ → Alone limit cb j co st' (k r) stack) :
    ∀ (p : EvProg α) (st st' : EvState α) r, p.run fire st = (some r, st') → ∀ (co : CoState α) m, SameSoFar st co → co.coros[j]? = some ⟨asCo p, stack, m⟩ →
      Alone limit cb j co st' (endOf r) stack := by
  intro p
  induction p with
  | done =>
    intro st st' r h co m hs hc
    cases h
    exact Alone.now hs hc
  | raise e =>
    intro st st' r h co m hs hc
    cases h
    exact Alone.now hs hc
  | subscribe ev s k ih =>
    intro st st' r h co m hs hc
    refine Alone.andThen (lt_of_getElem? hc) (st := st.setSubs ev (eventSubscribe (st.subs ev) s)) (cur := asCo k) (stack := stack) ?_ (fun co' m' hs' hc' => ih _ _ _ h co' m' hs' hc')
    refine Alone.step (m := m) ?_ ?_
    · unfold coStep
      rw [hc]
      simp only [asCo]
      refine ⟨hs.names, ?_, ?_⟩
      · simp only [CoState.put, CoState.log, CoState.setSubs, EvState.setSubs, hs.subs]
      · simp only [CoState.put, CoState.log, CoState.setSubs, EvState.setSubs]
        rw [allCalls_snoc, ← hs.calls]
        exact List.append_nil _
    · unfold coStep
      rw [hc]
      rfl
  | unsubscribe ev s k ih =>
    intro st st' r h co m hs hc
    refine Alone.andThen (lt_of_getElem? hc) (st := st.setSubs ev (eventUnsubscribe (st.subs ev) s).2) (cur := asCo (k (eventUnsubscribe (st.subs ev) s).1)) (stack := stack) ?_
      (fun co' m' hs' hc' => ih _ _ _ _ h co' m' hs' hc')
    refine Alone.step (m := m) ?_ ?_
    · unfold coStep
      rw [hc]
      simp only [asCo, eventUnsubscribe, hs.subs]
      by_cases hm : s ∈ st.subs ev
      · simp only [if_pos hm]
        refine ⟨hs.names, ?_, ?_⟩
        · simp only [CoState.put, CoState.log, CoState.setSubs, EvState.setSubs, hs.subs]
        · simp only [CoState.put, CoState.log, CoState.setSubs, EvState.setSubs]
          rw [allCalls_snoc, ← hs.calls]
          exact List.append_nil _
      · simp only [if_neg hm]
        refine ⟨hs.names, ?_, hs.calls⟩
        funext n
        simp only [CoState.put, EvState.setSubs, hs.subs]
        split
        · rename_i e; rw [e]
        · rfl
    · unfold coStep
      rw [hc]
      simp only [asCo, eventUnsubscribe, hs.subs]
      by_cases hm : s ∈ st.subs ev
      · simp only [if_pos hm]; rfl
      · simp only [if_neg hm]; rfl
  | register ev k ih =>
    intro st st' r h co m hs hc
    refine Alone.andThen (lt_of_getElem? hc) (st := Pyogp.register st ev) (cur := asCo k) (stack := stack) ?_ (fun co' m' hs' hc' => ih _ _ _ h co' m' hs' hc')
    refine Alone.step (m := m) ?_ ?_
    · unfold coStep
      rw [hc]
      simp only [asCo, Pyogp.register]
      refine ⟨?_, ?_, ?_⟩
      · simp only [CoState.put, hs.names]
        split <;> rfl
      · simp only [CoState.put, hs.subs]
        split <;> rfl
      · simp only [CoState.put, hs.calls]
        split <;> rfl
    · unfold coStep
      rw [hc]
      rfl
  | fire ev x k ih =>
    intro st st' r h co m hs hc
    simp only [EvProg.run] at h
    cases hf : fire ev x st with
    | mk o st1 =>
      rw [hf] at h
      cases o with
      | none => cases h
      | some r1 =>
        exact Alone.andThen (lt_of_getElem? hc) (hfire ev x st st1 r1 hf co _ m hs hc) (fun co' m' hs' hc' => ih _ _ _ _ h co' m' hs' hc')

/-- The loop of a notification in progress, until it ends. -/
theorem loop_alone {limit : Nat} {cb : List (CoCall α) → EvProg α} {j : Nat} {fire : String → α → EvState α → Option (Py Unit) × EvState α} {number level : Nat} {ev : String} {x : α} {handler : Bool}
    {k : Py Unit → CoProg α} {fs : List (CoFrame α)}
    (hfire : ∀ pos ev' x' (st st' : EvState α) r, fire ev' x' st = (some r, st') → ∀ (co : CoState α) k' m, SameSoFar st co →
      co.coros[j]? = some ⟨.notify ev' x' k', ⟨number, ev, x, pos, handler, k⟩ :: fs, m⟩ → Alone limit cb j co st' (k' r) (⟨number, ev, x, pos, handler, k⟩ :: fs)) :
    ∀ (fuel i : Nat) (st st' : EvState α) r, notifyLoop (fun cs => cb (cs.map bare)) fire level ev x fuel i st = (some r, st') → ∀ (co : CoState α) m, SameSoFar st co →
      co.coros[j]? = some ⟨.done, ⟨number, ev, x, i, handler, k⟩ :: fs, m⟩ → Alone limit cb j co st' (k (if handler = true ∧ r = .error .keyError then .ok () else r)) fs := by
  intro fuel
  induction fuel with
  | zero => intro i st st' r h; cases h
  | succ fuel ih =>
    intro i st st' r h co m hs hc
    simp only [notifyLoop] at h
    cases hi : (st.subs ev)[i]? with
    | none =>
      rw [hi] at h
      cases h
      rw [if_neg (by simp)]
      refine Alone.step (m := m) ?_ ?_
      · unfold coStep
        rw [hc]
        simp only [hs.subs, hi]
        refine ⟨hs.names, hs.subs, ?_⟩
        simp only [CoState.put, CoState.log]
        rw [allCalls_snoc, ← hs.calls]
        exact List.append_nil _
      · unfold coStep
        rw [hc]
        simp only [hs.subs, hi]
        rfl
    | some s =>
      rw [hi] at h
      simp only at h
      refine Alone.andThen (lt_of_getElem? hc) (st := st.log ⟨level, ev, s.handler, (x, s.args), s.kwargs⟩)
        (cur := asCo (cb ((st.log ⟨level, ev, s.handler, (x, s.args), s.kwargs⟩).calls.map bare))) (stack := ⟨number, ev, x, i + 1, handler, k⟩ :: fs) ?_ (fun co1 m1 hs1 hc1 => ?_)
      · have hcalls : allCalls (co.trace ++ [.called (j, number) ⟨s.handler, (x, s.args), s.kwargs⟩]) = (st.calls ++ [(⟨level, ev, s.handler, (x, s.args), s.kwargs⟩ : Call α)]).map bare := by
          rw [allCalls_snoc, hs.calls, List.map_append]
          rfl
        refine Alone.step (m := m) ?_ ?_
        · unfold coStep
          rw [hc]
          simp only [hs.subs, hi]
          exact ⟨hs.names, hs.subs, hcalls⟩
        · unfold coStep
          rw [hc]
          simp only [hs.subs, hi]
          simp only [CoState.put, CoState.log, EvState.log]
          rw [hcalls]
      · have hj1 := lt_of_getElem? hc1
        cases hr : (cb ((st.log ⟨level, ev, s.handler, (x, s.args), s.kwargs⟩).calls.map bare)).run fire (st.log ⟨level, ev, s.handler, (x, s.args), s.kwargs⟩) with
        | mk o st2 =>
          rw [hr] at h
          cases o with
          | none => cases h
          | some r2 =>
            have h2 := run_alone (limit := limit) (cb := cb) (hfire (i + 1)) _ _ _ _ hr co1 m1 hs1 hc1
            refine Alone.andThen hj1 h2 (fun co2 m2 hs2 hc2 => ?_)
            cases r2 with
            | ok u => exact ih _ _ _ _ h co2 m2 hs2 hc2
            | error e =>
              cases h
              refine Alone.step (m := m2) ?_ ?_
              · unfold coStep
                rw [hc2]
                simp only [endOf]
                refine ⟨hs2.names, hs2.subs, ?_⟩
                simp only [CoState.put, CoState.log]
                rw [allCalls_snoc, ← hs2.calls]
                exact List.append_nil _
              · unfold coStep
                rw [hc2]
                simp only [endOf, Except.error.injEq]
                rfl

/-- A notification: where `level` calls are left of the recursion limit. -/
theorem notify_alone {limit : Nat} {cb : List (CoCall α) → EvProg α} {j : Nat} (fuel : Nat) : ∀ (level : Nat) (stack : List (CoFrame α)), stack.length + level = limit → ∀ ev x (st st' : EvState α) r,
    notifyAt (fun cs => cb (cs.map bare)) fuel level ev x st = (some r, st') → ∀ (co : CoState α) k m, SameSoFar st co → co.coros[j]? = some ⟨.notify ev x k, stack, m⟩ →
      Alone limit cb j co st' (k r) stack := by
  intro level
  induction level with
  | zero =>
    intro stack hl ev x st st' r h co k m hs hc
    cases h
    refine Alone.step (m := m) ?_ ?_
    · unfold coStep
      rw [hc]
      simp only [startNotify]
      rw [if_pos (by omega)]
      exact ⟨hs.names, hs.subs, hs.calls⟩
    · unfold coStep
      rw [hc]
      simp only [startNotify]
      rw [if_pos (by omega)]
      rfl
  | succ level ih =>
    intro stack hl ev x st st' r h co k m hs hc
    simp only [notifyAt] at h
    refine Alone.andThen (lt_of_getElem? hc) (st := st) (cur := .done) (stack := ⟨m, ev, x, 0, false, k⟩ :: stack) ?_ (fun co1 m1 hs1 hc1 => ?_)
    · refine Alone.step (m := m + 1) ?_ ?_
      · unfold coStep
        rw [hc]
        simp only [startNotify]
        rw [if_neg (by omega)]
        refine ⟨hs.names, hs.subs, ?_⟩
        simp only [CoState.put, CoState.log]
        rw [allCalls_snoc, ← hs.calls]
        exact List.append_nil _
      · unfold coStep
        rw [hc]
        simp only [startNotify]
        rw [if_neg (by omega)]
        rfl
    · have := loop_alone (limit := limit) (cb := cb) (handler := false) (k := k) (fs := stack) (number := m) (fun pos ev' x' st st' r h co k' m' hs hc =>
        ih (⟨m, ev, x, pos, false, k⟩ :: stack) (by simp; omega) ev' x' st st' r h co k' m' hs hc) fuel 0 st st' r h co1 m1 hs1 hc1
      simpa using this

/-- **C115, firing an event.** A coroutine that fires an event, and goes on without a switch to another, makes exactly the calls of the sequential `notify` and leaves exactly its subscriptions; it gets the
same result. -/
theorem C115_notify (cb : List (CoCall α) → EvProg α) (fuel level : Nat) (stack : List (CoFrame α)) (ev : String) (x : α) (st st' : EvState α) (r : Py Unit)
    (h : notifyAt (fun cs => cb (cs.map bare)) fuel level ev x st = (some r, st')) (j : Nat) (co : CoState α) (k : Py Unit → CoProg α) (m : Nat) (hs : SameSoFar st co)
    (hc : co.coros[j]? = some ⟨.notify ev x k, stack, m⟩) : Alone (stack.length + level) cb j co st' (k r) stack :=
  notify_alone fuel level stack rfl ev x st st' r h co k m hs hc

/-- **C115, a program.** So with everything else a handler may do. -/
theorem C115_program (cb : List (CoCall α) → EvProg α) (fuel level : Nat) (stack : List (CoFrame α)) (p : EvProg α) (st st' : EvState α) (r : Py Unit)
    (h : p.run (notifyAt (fun cs => cb (cs.map bare)) fuel level) st = (some r, st')) (j : Nat) (co : CoState α) (m : Nat) (hs : SameSoFar st co)
    (hc : co.coros[j]? = some ⟨asCo p, stack, m⟩) : Alone (stack.length + level) cb j co st' (endOf r) stack :=
  run_alone (fun ev x st st' r h co k m hs hc => notify_alone fuel level stack rfl ev x st st' r h co k m hs hc) p st st' r h co m hs hc

/-- **C115, a message.** The handling of a message, without a switch to another coroutine, is the sequential one: an unregistered name and one without subscribers make no calls, and a `KeyError` of a
subscriber is swallowed. -/
theorem C115_handle (cb : List (CoCall α) → EvProg α) (fuel level : Nat) (stack : List (CoFrame α)) (name : String) (x : α) (st st' : EvState α) (r : Py Unit)
    (h : handleMessage (fun cs => cb (cs.map bare)) fuel (level + 1) name x st = (some r, st')) (j : Nat) (co : CoState α) (k : Py Unit → CoProg α) (m : Nat) (hs : SameSoFar st co)
    (hc : co.coros[j]? = some ⟨.handle name x k, stack, m⟩) : Alone (stack.length + (level + 1)) cb j co st' (k r) stack := by
  unfold handleMessage at h
  have idle : ¬ (name ∈ st.names ∧ 0 < (st.subs name).length) → (some (.ok ()), st) = (some r, st') → Alone (stack.length + (level + 1)) cb j co st' (k r) stack := by
    intro hn h
    cases h
    refine Alone.step (m := m) ?_ ?_
    · unfold coStep
      rw [hc]
      simp only [hs.names, hs.subs]
      rw [if_neg hn]
      exact ⟨hs.names, hs.subs, hs.calls⟩
    · unfold coStep
      rw [hc]
      simp only [hs.names, hs.subs]
      rw [if_neg hn]
      rfl
  by_cases hn : name ∈ st.names
  · rw [if_pos hn] at h
    by_cases hl : 0 < (st.subs name).length
    · rw [if_pos hl] at h
      simp only [notifyAt] at h
      refine Alone.andThen (lt_of_getElem? hc) (st := st) (cur := .done) (stack := ⟨m, name, x, 0, true, k⟩ :: stack) ?_ (fun co1 m1 hs1 hc1 => ?_)
      · refine Alone.step (m := m + 1) ?_ ?_
        · unfold coStep
          rw [hc]
          simp only [hs.names, hs.subs]
          rw [if_pos ⟨hn, hl⟩]
          simp only [startNotify]
          rw [if_neg (by omega)]
          refine ⟨hs.names, hs.subs, ?_⟩
          simp only [CoState.put, CoState.log]
          rw [allCalls_snoc, ← hs.calls]
          exact List.append_nil _
        · unfold coStep
          rw [hc]
          simp only [hs.names, hs.subs]
          rw [if_pos ⟨hn, hl⟩]
          simp only [startNotify]
          rw [if_neg (by omega)]
          rfl
      · cases hloop : notifyLoop (fun cs => cb (cs.map bare)) (notifyAt (fun cs => cb (cs.map bare)) fuel level) (level + 1) name x fuel 0 st with
        | mk o st2 =>
          rw [hloop] at h
          cases o with
          | none => cases h
          | some r2 =>
            have := loop_alone (limit := stack.length + (level + 1)) (cb := cb) (handler := true) (k := k) (fs := stack) (number := m) (fun pos ev' x' st st' r h co k' m' hs hc =>
              notify_alone fuel level (⟨m, name, x, pos, true, k⟩ :: stack) (by simp; omega) ev' x' st st' r h co k' m' hs hc) fuel 0 st st2 r2 hloop co1 m1 hs1 hc1
            cases r2 with
            | ok u => cases h; simpa using this
            | error e => cases e <;> cases h <;> simpa using this
    · rw [if_neg hl] at h
      exact idle (fun h => hl h.2) h
  · rw [if_neg hn] at h
    exact idle (fun h => hn h.1) h

/-- A coroutine alone: handler 0 fires another event and then raises `KeyError`, which the handling of the message swallows. -/
example : ∃ st', handleMessage (α := Nat) (fun cs => if (cs.map bare).length = 1 then .fire "other" 8 (fun _ => .raise .keyError) else .done) 5 4 "m" 7
    { names := ["m"], subs := fun n => if n = "m" then [⟨0, [], []⟩, ⟨1, [], []⟩] else if n = "other" then [⟨2, [], []⟩] else [] } = (some (.ok ()), st') ∧ st'.calls.length = 2 ∧
    SameSoFar { names := ["m"], subs := fun n => if n = "m" then [⟨0, [], []⟩, ⟨1, [], []⟩] else if n = "other" then [⟨2, [], []⟩] else [] }
      ({ names := ["m"], subs := fun n => if n = "m" then [⟨0, [], []⟩, ⟨1, [], []⟩] else if n = "other" then [⟨2, [], []⟩] else [], coros := [⟨.handle "m" 7 (fun _ => .done), [], 0⟩] } : CoState Nat) :=
  ⟨_, rfl, rfl, rfl, rfl, rfl⟩

end Pyogp
