import Verif.Model.EqLogging
import Verif.Spec.Logging
import Verif.Props.Printing
import Verif.Props.EventQueue
import Verif.Props.Circuit

namespace Pyogp
open Spec

/-! ## C105

The event queue and its log messages. -/

theorem hostShown_iff (L : EqLog) : L.hostShown = true ↔ EqHostShown L := by
  unfold EqLog.hostShown EqHostShown
  cases L.host with
  | none => simp
  | some h =>
    simp only [Option.some.injEq, forall_eq']
    by_cases hs : HostShown L.ip h
    · rw [(C102_host (LogEnv.hostVals ⟨L.settings, L.ip⟩ h).1 (LogEnv.hostVals ⟨L.settings, L.ip⟩ h).2).1 hs]
      simp [hs]
    · rw [(C102_host (LogEnv.hostVals ⟨L.settings, L.ip⟩ h).1 (LogEnv.hostVals ⟨L.settings, L.ip⟩ h).2).2 hs]
      simp [hs]

theorem hostShown_false {L : EqLog} (hh : ¬ EqHostShown L) : L.hostShown = false := by
  cases hb : L.hostShown with
  | false => rfl
  | true => exact absurd ((hostShown_iff L).1 hb) hh

theorem parseResultL_eq {L : EqLog} (hh : L.hostShown = true) (d : TemplateDict) (h : EqHandler) (st : EqState) (data : Llsd) :
    parseResultL L d h st data = parseResult d h st data := by
  unfold parseResultL
  split
  · rename_i e; rw [parseResult, if_pos e]
  · rfl

theorem eqPollL_eq {L : EqLog} (hh : L.hostShown = true) (he : ∀ e, L.errShown e = true) (d : TemplateDict) (h : EqHandler) (st : EqState)
    (o : PollOutcome) : eqPollL L d h st o = eqPoll d h st o := by
  have h1 : L.postingOk = true := by unfold EqLog.postingOk; rw [hh, Bool.or_true]
  have h2 : ∀ e, L.failedOk e = true := by intro e; unfold EqLog.failedOk; rw [hh, he, Bool.or_true]; rfl
  unfold eqPollL eqPoll
  rw [h1]
  cases o with
  | response v =>
    simp only [Bool.not_true, Bool.false_eq_true, if_false, parseResultL_eq hh]
    rfl
  | failure e =>
    simp only [Bool.not_true, Bool.false_eq_true, if_false, parseResultL_eq hh, h2]
    rfl

theorem foldl_eqPollL {L : EqLog} (hh : L.hostShown = true) (he : ∀ e, L.errShown e = true) (d : TemplateDict) (h : EqHandler)
    (polls : List PollOutcome) : ∀ st, polls.foldl (eqPollL L d h) st = polls.foldl (eqPoll d h) st := by
  induction polls with
  | nil => intro st; rfl
  | cons o polls ih => intro st; rw [List.foldl_cons, List.foldl_cons, eqPollL_eq hh he, ih]

/-- **C105.** If the host, the capability and the exceptions can be shown, the log settings change nothing: `start` returns the same and leads to the same
state, with the same posts and deliveries. -/
theorem C105_no_effect (L : EqLog) (hh : EqHostShown L) (hc : L.capShown = true) (he : ∀ e, L.errShown e = true) (d : TemplateDict) (h : EqHandler)
    (capName : Option String) (stopped : Bool) (polls : List PollOutcome) (final : PollOutcome) (st : EqState) :
    eqStartL L d h capName stopped polls final st =
      (.ok (eqStart d h capName stopped polls final st).1, (eqStart d h capName stopped polls final st).2) := by
  have hh := (hostShown_iff L).2 hh
  have hf : ∀ e, L.startFailed e = .ok false := by
    intro e; unfold EqLog.startFailed; rw [hh, hc, he]; rfl
  have hp : ∀ polls, processRegionL L d h polls final st = processRegion d h polls final st := by
    intro polls
    unfold processRegionL processRegion
    rw [foldl_eqPollL hh he, hh]
    simp only [if_true]
    split
    · rfl
    · cases final <;> rfl
  unfold eqStartL eqStart
  cases capName with
  | none => simp only [hf]
  | some n =>
    simp only [hf, hh, hp, Bool.not_true, Bool.and_false, Bool.false_eq_true, if_false]
    split
    · generalize processAD stopped st = x
      obtain ⟨x1, x2⟩ := x
      cases x1 <;> rfl
    · split
      · generalize processRegion d h (if stopped = true then [] else polls) final st = x
        obtain ⟨x1, x2⟩ := x
        cases x1 <;> rfl
      · rfl

theorem eqPollL_unshown {L : EqLog} (hh : L.hostShown = false) (d : TemplateDict) (h : EqHandler) (st : EqState) (o : PollOutcome) :
    (eqPollL L d h st o).delivered = st.delivered := by
  have hp : ∀ st data, parseResultL L d h st data = st := by
    intro st data
    unfold parseResultL
    split
    · rfl
    · rw [hh]; rfl
  unfold eqPollL
  split
  · rfl
  · simp only [hp]
    cases o with
    | response v =>
      simp only
      split
      · rfl
      · split
        · rfl
        · cases llsdItem v "id" <;> rfl
    | failure e =>
      simp only
      split
      · rfl
      · split
        · rfl
        · cases llsdItem st.result "id" <;> rfl

/-- **C105, the exception.** With a host that cannot be shown no event is ever delivered, whatever the settings and whatever the server sends. -/
theorem C105_unshowable_host (L : EqLog) (hh : ¬ EqHostShown L) (d : TemplateDict) (h : EqHandler) (capName : Option String) (stopped : Bool)
    (polls : List PollOutcome) (final : PollOutcome) (st : EqState) :
    (eqStartL L d h capName stopped polls final st).2.delivered = st.delivered := by
  have hh : L.hostShown = false := by
    cases hb : L.hostShown with
    | false => rfl
    | true => exact absurd ((hostShown_iff L).1 hb) hh
  have hfold : ∀ (polls : List PollOutcome) st, (polls.foldl (eqPollL L d h) st).delivered = st.delivered := by
    intro polls
    induction polls with
    | nil => intro st; rfl
    | cons o polls ih => intro st; rw [List.foldl_cons, ih, eqPollL_unshown hh]
  have hr : ∀ polls, (processRegionL L d h polls final st).2.delivered = st.delivered := by
    intro polls
    unfold processRegionL
    simp only
    split
    · exact hfold polls _
    · cases final <;> exact hfold polls _
  unfold eqStartL
  cases capName with
  | none => rfl
  | some n =>
    simp only
    split
    · unfold processAD
      cases stopped <;> rfl
    · split
      · split
        · rfl
        · have := hr (if stopped = true then [] else polls)
          revert this
          generalize processRegionL L d h (if stopped = true then [] else polls) final st = x
          obtain ⟨x1, x2⟩ := x
          intro this
          cases x1 <;> exact this
      · rfl

/-- With the default settings the event queue does not even start then: `start` raises and nothing is posted. -/
theorem C105_unshowable_start (L : EqLog) (hh : ¬ EqHostShown L) (hl : L.settings.LOG_COROUTINE_SPAWNS = true) (d : TemplateDict) (h : EqHandler)
    (stopped : Bool) (polls : List PollOutcome) (final : PollOutcome) (st : EqState) :
    eqStartL L d h (some "EventQueueGet") stopped polls final st = (.error .valueError, st) ∧ Settings.new.LOG_COROUTINE_SPAWNS = true := by
  have hh : L.hostShown = false := by
    cases hb : L.hostShown with
    | false => rfl
    | true => exact absurd ((hostShown_iff L).1 hb) hh
  refine ⟨?_, rfl⟩
  unfold eqStartL EqLog.startFailed
  simp [hh, hl]

/-- A capability of any other name is no event queue: `start` returns False, posts nothing and delivers nothing, whatever can be shown and whatever the
settings. -/
theorem C105_other_capability (L : EqLog) (d : TemplateDict) (h : EqHandler) (n : String) (h1 : n ≠ "event_queue") (h2 : n ≠ "EventQueueGet")
    (stopped : Bool) (polls : List PollOutcome) (final : PollOutcome) (st : EqState) :
    eqStartL L d h (some n) stopped polls final st = (.ok false, st) := by
  unfold eqStartL
  simp [h1, h2]

/-- What `start` does with an exception: it returns False if the host, the capability and the exception can be shown, and otherwise raises `ValueError`.  A
capability without a name, or a last POST that raises, leads to this. -/
theorem C105_start_failed (L : EqLog) (d : TemplateDict) (h : EqHandler) (capName : Option String) (stopped : Bool) (polls : List PollOutcome)
    (final : PollOutcome) (st : EqState) (e : Exc)
    (hfail : capName = none ∧ e = .attributeError ∨
      capName = some "EventQueueGet" ∧ final = .failure e ∧ isMinusOne (eqStartL L d h capName stopped polls final st).2.lastId = false) :
    let r := eqStartL L d h capName stopped polls final st
    (EqHostShown L ∧ L.capShown = true ∧ L.errShown e = true → r.1 = .ok false) ∧
    (¬ (EqHostShown L ∧ L.capShown = true ∧ L.errShown e = true) → r.1 = .error .valueError) := by
  have hs : (EqHostShown L ∧ L.capShown = true ∧ L.errShown e = true → L.startFailed e = .ok false) ∧
      (¬ (EqHostShown L ∧ L.capShown = true ∧ L.errShown e = true) → L.startFailed e = .error .valueError) := by
    rw [← hostShown_iff]
    unfold EqLog.startFailed
    cases L.hostShown <;> cases L.capShown <;> cases L.errShown e <;> simp
  rcases hfail with ⟨rfl, rfl⟩ | ⟨rfl, rfl, hdone⟩
  · exact hs
  · by_cases hl : (L.settings.LOG_COROUTINE_SPAWNS && !L.hostShown) = true
    · have hh : ¬ EqHostShown L := by
        rw [← hostShown_iff]; simp only [Bool.and_eq_true, Bool.not_eq_true'] at hl; simp [hl.2]
      have hv : ∀ e, L.startFailed e = .error .valueError := by
        intro e; unfold EqLog.startFailed; rw [hostShown_false hh]; rfl
      refine ⟨fun ⟨h1, _⟩ => absurd h1 hh, fun _ => ?_⟩
      simp [eqStartL, hl, hv]
    · have key : processRegionL L d h (if stopped then [] else polls) (.failure e) st =
          (.error e, (processRegionL L d h (if stopped then [] else polls) (.failure e) st).2) := by
        have hst : (eqStartL L d h (some "EventQueueGet") stopped polls (.failure e) st).2 =
            (processRegionL L d h (if stopped then [] else polls) (.failure e) st).2 := by
          unfold eqStartL
          simp only [if_neg hl, reduceIte, String.reduceEq]
          generalize processRegionL L d h (if stopped = true then [] else polls) (.failure e) st = x
          obtain ⟨x1, x2⟩ := x
          cases x1 <;> rfl
        rw [hst] at hdone
        revert hdone
        generalize (if stopped then [] else polls) = ps
        unfold processRegionL
        simp only
        split
        · rename_i hm
          intro hdone
          rw [hm] at hdone
          cases hdone
        · intro _; rfl
      have hr : (eqStartL L d h (some "EventQueueGet") stopped polls (.failure e) st).1 = L.startFailed e := by
        unfold eqStartL
        simp only [if_neg hl, reduceIte, String.reduceEq]
        rw [key]
      exact ⟨fun h => hr.trans (hs.1 h), fun h => hr.trans (hs.2 h)⟩

/-- With a host that cannot be shown `start` of a region's event queue always raises, whatever the settings. -/
theorem C105_unshowable_raises (L : EqLog) (hh : ¬ EqHostShown L) (d : TemplateDict) (h : EqHandler) (stopped : Bool) (polls : List PollOutcome)
    (final : PollOutcome) (st : EqState) : (eqStartL L d h (some "EventQueueGet") stopped polls final st).1 = .error .valueError := by
  have hv : ∀ e, L.startFailed e = .error .valueError := by
    intro e; unfold EqLog.startFailed; rw [hostShown_false hh]; rfl
  have hr : ∀ polls, ∃ e, (processRegionL L d h polls final st).1 = .error e := by
    intro polls
    unfold processRegionL
    simp only [hostShown_false hh, Bool.false_eq_true, if_false]
    split
    · exact ⟨_, rfl⟩
    · cases final <;> exact ⟨_, rfl⟩
  unfold eqStartL
  simp only [hv, reduceIte, String.reduceEq]
  split
  · rfl
  · obtain ⟨e, he⟩ := hr (if stopped = true then [] else polls)
    revert he
    generalize processRegionL L d h (if stopped = true then [] else polls) final st = x
    obtain ⟨x1, x2⟩ := x
    intro he
    simp only at he
    subst he
    rfl

/-- A capability or an exception that cannot be shown, and a last POST that fails. -/
example :
    let L : EqLog := ⟨Settings.new, fun s => .uni s.toList, some ⟨.str "10.0.0.1", some 13000⟩, true, fun e => e ≠ .httpError 500⟩
    let polls : List PollOutcome := [.response (.map [("id", .int 5), ("events", .arr [])])]
    let start := fun (L : EqLog) c => eqStartL L dispDict (fun _ => .ok ()) (some "EventQueueGet") false polls (.failure (.httpError c)) {}
    isMinusOne (start L 502).2.lastId = false ∧ (start L 502).1 = .ok false ∧ (start L 500).1 = .error .valueError ∧
    (start { L with capShown := false } 502).1 = .error .valueError := by decide +kernel

/-- An exception that cannot be shown ends the round: a failed post then hands nothing over, while usually the last response is handled once more
(C39). -/
theorem C105_unshowable_error (L : EqLog) (d : TemplateDict) (h : EqHandler) (st : EqState) (e : Exc) (he : L.errShown e = false) :
    (eqPollL L d h st (.failure e)).delivered = st.delivered ∧ (eqPollL L d h st (.failure e)).lastId = st.lastId := by
  have : L.failedOk e = false := by unfold EqLog.failedOk; rw [he, Bool.and_false]
  unfold eqPollL
  simp only [this, Bool.not_false, if_true]
  split <;> exact ⟨rfl, rfl⟩

/-- What is posted, whatever is handed over. -/
structure SamePosts (s t : EqState) : Prop where
  posts : s.posts = t.posts
  lastId : s.lastId = t.lastId
  result : s.result = t.result
  none : s.result = .undef → s.lastId = .int (-1)
  some : ∀ i, s.result ≠ .undef → llsdItem s.result "id" = .ok i → s.lastId = i

theorem parseResultL_id (L : EqLog) (d : TemplateDict) (h : EqHandler) (st : EqState) (v : Llsd) :
    (parseResultL L d h st v).lastId = st.lastId ∧ (parseResultL L d h st v).result = st.result ∧ (parseResultL L d h st v).posts = st.posts := by
  unfold parseResultL
  split
  · exact ⟨rfl, rfl, rfl⟩
  · split
    · exact ⟨(parseResult_id d h st v).1, (parseResult_id d h st v).2.1, (parseResult_id d h st v).2.2.1⟩
    · exact ⟨rfl, rfl, rfl⟩

theorem SamePosts.poll {L : EqLog} (hp : L.postingOk = true) (d : TemplateDict) (h : EqHandler) {s t : EqState} (hst : SamePosts s t) (o : PollOutcome) :
    SamePosts (eqPollL L d h s o) (eqPoll d h t o) := by
  obtain ⟨h1, h2, h3, h4, h5⟩ := hst
  unfold eqPollL eqPoll
  simp only [hp, Bool.not_true, Bool.false_eq_true, if_false]
  cases o with
  | response v =>
    simp only [Bool.false_eq_true, if_false]
    by_cases hv : v = .undef
    · simp only [hv, if_true]
      obtain ⟨a1, a2, a3⟩ := parseResultL_id L d h { s with lastId := .int (-1), result := .undef, posts := s.posts ++ [pollData s.lastId] } .undef
      obtain ⟨b1, b2, b3, -⟩ := parseResult_id d h { t with lastId := .int (-1), result := .undef, posts := t.posts ++ [pollData t.lastId] } .undef
      refine ⟨?_, ?_, ?_, ?_, ?_⟩
      · rw [a3, b3, h1, h2]
      · rw [a1, b1]
      · rw [a2, b2]
      · intro _; exact a1
      · intro i hi; exact absurd a2 hi
    · simp only [hv, if_false]
      cases hi : llsdItem v "id" with
      | ok i =>
        simp only
        obtain ⟨a1, a2, a3⟩ := parseResultL_id L d h { s with lastId := i, result := v, posts := s.posts ++ [pollData s.lastId] } v
        obtain ⟨b1, b2, b3, -⟩ := parseResult_id d h { t with lastId := i, result := v, posts := t.posts ++ [pollData t.lastId] } v
        refine ⟨?_, ?_, ?_, ?_, ?_⟩
        · rw [a3, b3, h1, h2]
        · rw [a1, b1]
        · rw [a2, b2]
        · intro he; exact absurd (a2.symm.trans he) hv
        · intro j _ hj
          rw [a2] at hj
          rw [a1]
          exact Except.ok.inj (hi.symm.trans hj)
      | error e =>
        simp only
        refine ⟨?_, h2, rfl, fun he => absurd he hv, fun j _ hj => ?_⟩
        · show s.posts ++ _ = t.posts ++ _
          rw [h1, h2]
        · exact absurd (hi.symm.trans hj) (by simp)
  | failure e =>
    have hquiet : SamePosts { s with posts := s.posts ++ [pollData s.lastId] }
        (if t.result = .undef then
          parseResult d h { t with posts := t.posts ++ [pollData t.lastId], lastId := .int (-1) } t.result
        else match llsdItem t.result "id" with
          | .ok i => parseResult d h { t with posts := t.posts ++ [pollData t.lastId], lastId := i } t.result
          | .error _ => { t with posts := t.posts ++ [pollData t.lastId] }) := by
      by_cases ht : t.result = .undef
      · rw [if_pos ht]
        obtain ⟨b1, b2, b3, -⟩ := parseResult_id d h { t with posts := t.posts ++ [pollData t.lastId], lastId := .int (-1) } t.result
        refine ⟨?_, ?_, ?_, h4, h5⟩
        · rw [b3, h1, h2]
        · rw [b1]; exact h4 (h3.trans ht)
        · rw [b2]; exact h3
      · rw [if_neg ht]
        cases hi : llsdItem t.result "id" with
        | ok i =>
          obtain ⟨b1, b2, b3, -⟩ := parseResult_id d h { t with posts := t.posts ++ [pollData t.lastId], lastId := i } t.result
          refine ⟨?_, ?_, ?_, h4, h5⟩
          · rw [b3, h1, h2]
          · rw [b1]; exact h5 i (by rw [h3]; exact ht) (by rw [h3]; exact hi)
          · rw [b2]; exact h3
        | error e =>
          refine ⟨?_, h2, h3, h4, h5⟩
          show s.posts ++ _ = t.posts ++ _
          rw [h1, h2]
    simp only
    split
    · exact hquiet
    · by_cases hs : s.result = .undef
      · simp only [hs, if_true, ← h3]
        obtain ⟨a1, a2, a3⟩ := parseResultL_id L d h { s with posts := s.posts ++ [pollData s.lastId], lastId := .int (-1), result := .undef } .undef
        obtain ⟨b1, b2, b3, -⟩ := parseResult_id d h { t with posts := t.posts ++ [pollData t.lastId], lastId := .int (-1), result := .undef } .undef
        refine ⟨?_, ?_, ?_, ?_, ?_⟩
        · rw [a3, b3, h1, h2]
        · rw [a1, b1]
        · rw [a2, b2]
        · intro _; exact a1
        · intro i hi; exact absurd a2 hi
      · simp only [hs, if_false, ← h3]
        cases hi : llsdItem s.result "id" with
        | ok i =>
          simp only
          obtain ⟨a1, a2, a3⟩ := parseResultL_id L d h { s with posts := s.posts ++ [pollData s.lastId], lastId := i } s.result
          obtain ⟨b1, b2, b3, -⟩ := parseResult_id d h { t with posts := t.posts ++ [pollData t.lastId], lastId := i, result := s.result } s.result
          refine ⟨?_, ?_, ?_, ?_, ?_⟩
          · rw [a3, b3, h1, h2]
          · rw [a1, b1]
          · rw [a2, b2]
          · intro he; exact absurd (a2.symm.trans he) hs
          · intro j _ hj
            rw [a2] at hj
            rw [a1]
            exact Except.ok.inj (hi.symm.trans hj)
        | error e =>
          simp only
          refine ⟨?_, h2, rfl, fun he => absurd he hs, fun j _ hj => ?_⟩
          · show s.posts ++ _ = t.posts ++ _
            rw [h1, h2]
          · exact absurd (hi.symm.trans hj) (by simp)

/-- What a region's event queue posts when the host cannot be shown and `start` does not fail at once: nothing at all if event queue logging and host
logging are both on (the message before the POST raises), and otherwise exactly what it posts without log messages, acknowledging events it never handed
over. -/
theorem C105_unshowable_posts (L : EqLog) (hh : ¬ EqHostShown L) (hl : L.settings.LOG_COROUTINE_SPAWNS = false) (d : TemplateDict) (h : EqHandler)
    (stopped : Bool) (polls : List PollOutcome) (final : PollOutcome) :
    (L.settings.ENABLE_EQ_LOGGING = true ∧ L.settings.ENABLE_HOST_LOGGING = true →
      (eqStartL L d h (some "EventQueueGet") stopped polls final {}).2.posts = []) ∧
    (¬ (L.settings.ENABLE_EQ_LOGGING = true ∧ L.settings.ENABLE_HOST_LOGGING = true) →
      (eqStartL L d h (some "EventQueueGet") stopped polls final {}).2.posts =
        (eqStart d h (some "EventQueueGet") stopped polls final {}).2.posts) := by
  have hh := hostShown_false hh
  have hstart : (eqStartL L d h (some "EventQueueGet") stopped polls final {}).2 =
      (processRegionL L d h (if stopped then [] else polls) final {}).2 := by
    unfold eqStartL
    have h1 : ¬ ("EventQueueGet" = "event_queue") := by decide
    simp only [h1, if_false, if_true, hl, Bool.false_and, Bool.false_eq_true]
    generalize processRegionL L d h (if stopped = true then [] else polls) final {} = x
    obtain ⟨x1, x2⟩ := x
    cases x1 <;> rfl
  have hstart' : (eqStart d h (some "EventQueueGet") stopped polls final {}).2 =
      (processRegion d h (if stopped then [] else polls) final {}).2 := by
    unfold eqStart
    have h1 : ¬ ("EventQueueGet" = "event_queue") := by decide
    simp only [h1, if_false, if_true]
    generalize processRegion d h (if stopped = true then [] else polls) final {} = x
    obtain ⟨x1, x2⟩ := x
    cases x1 <;> rfl
  rw [hstart, hstart']
  generalize (if stopped = true then [] else polls) = ps
  constructor
  · rintro ⟨e1, e2⟩
    have hp : L.postingOk = false := by unfold EqLog.postingOk; rw [e1, e2, hh]; rfl
    have hf : ∀ st, ps.foldl (eqPollL L d h) st = st := by
      intro st
      induction ps with
      | nil => rfl
      | cons o ps ih =>
        have : eqPollL L d h st o = st := by unfold eqPollL; rw [hp]; rfl
        rw [List.foldl_cons, this, ih]
    unfold processRegionL
    simp only [hf]
    rfl
  · intro hn
    have hp : L.postingOk = true := by
      unfold EqLog.postingOk
      cases e1 : L.settings.ENABLE_EQ_LOGGING with
      | false => rfl
      | true =>
        cases e2 : L.settings.ENABLE_HOST_LOGGING with
        | false => rfl
        | true => exact absurd ⟨e1, e2⟩ hn
    have hf : ∀ s t, SamePosts s t → SamePosts (ps.foldl (eqPollL L d h) s) (ps.foldl (eqPoll d h) t) := by
      induction ps with
      | nil => intro s t hst; exact hst
      | cons o ps ih =>
        intro s t hst
        rw [List.foldl_cons, List.foldl_cons]
        exact ih _ _ (hst.poll hp d h o)
    have := hf { running := true } { running := true }
      ⟨rfl, rfl, rfl, fun _ => rfl, fun i hi => absurd rfl hi⟩
    unfold processRegionL processRegion
    simp only
    revert this
    generalize ps.foldl (eqPollL L d h) { running := true } = s
    generalize ps.foldl (eqPoll d h) { running := true } = t
    intro this
    rw [this.lastId]
    cases isMinusOne t.lastId with
    | true => exact this.posts
    | false =>
      cases final with
      | response v => show s.posts ++ _ = t.posts ++ _; rw [this.posts]
      | failure e => show s.posts ++ _ = t.posts ++ _; rw [this.posts]

/-- The settings of both cases exist. -/
example : (Settings.new true).LOG_COROUTINE_SPAWNS = false ∧
    ¬ ((Settings.new true).ENABLE_EQ_LOGGING = true ∧ (Settings.new true).ENABLE_HOST_LOGGING = true) := by decide

/-- Quiet settings and a host that cannot be shown: the queue is polled, the events are acknowledged with the next post and at the end, and lost. -/
theorem C105_unshowable_quiet :
    let L : EqLog := ⟨Settings.new true, fun s => .uni s.toList, some ⟨.str "köln", some 13000⟩, true, fun _ => true⟩
    let good : EqLog := { L with host := some ⟨.str "10.0.0.1", some 13000⟩ }
    let polls : List PollOutcome :=
      [.response (.map [("id", .int 5), ("events", .arr [.map [("message", .str "ChatterBoxInvitation"), ("body", .map [])]])])]
    let r := eqStartL L dispDict (fun _ => .ok ()) (some "EventQueueGet") false polls (.response .undef) {}
    let g := eqStartL good dispDict (fun _ => .ok ()) (some "EventQueueGet") false polls (.response .undef) {}
    ¬ EqHostShown L ∧ EqHostShown good ∧
    r.2.posts = [.map [], .map [("ack", .int 5), ("done", .bool true)]] ∧ r.2.delivered = [] ∧ r.1 = .error .valueError ∧
    g.2.posts = r.2.posts ∧ g.2.delivered.map (·.name) = ["ChatterBoxInvitation"] ∧ g.1 = .ok true := by
  refine ⟨?_, ?_, by decide +kernel, by decide +kernel, by decide +kernel, by decide +kernel, by decide +kernel, by decide +kernel⟩
  · rw [← hostShown_iff]; decide +kernel
  · rw [← hostShown_iff]; decide +kernel

end Pyogp
