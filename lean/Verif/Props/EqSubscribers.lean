import Verif.Spec.EqSubscribers
import Verif.Props.EventQueue
import Verif.Props.Events

/-!
# C108: the event queue and the subscribers of its messages
-/

namespace Pyogp
open Spec

/-! ## The oracle for message handlers is justified -/

/-- The handler that raises what was recorded. -/
def recorded (R : List (Py Unit)) : EqHandler := fun l => (R[l.length - 1]?).getD (.ok ())

theorem handleMessage_no_keyError {α : Type} (beh : Behaviour α) (fuel level : Nat) (name : String) (x : α) (st : EvState α) :
    (handleMessage beh fuel level name x st).1 ≠ some (.error .keyError) := by
  unfold handleMessage
  split
  · split
    · split
      · simp
      · rename_i r hr
        intro h
        generalize notifyAt beh fuel level name x st = y at h hr
        obtain ⟨y1, y2⟩ := y
        exact hr y2 (by rw [show y1 = some (.error .keyError) from h])
    · simp
  · simp

theorem recorded_at {st : EqSubs} (hl : st.results.length = st.eq.delivered.length) {r : Py Unit} {m : Message} {R : List (Py Unit)}
    (hR : st.results ++ [r] <+: R) : recorded R (st.eq.delivered ++ [m]) = r := by
  obtain ⟨t, rfl⟩ := hR
  unfold recorded
  rw [List.length_append, List.length_singleton, Nat.add_sub_cancel, ← hl]
  simp

theorem deliverSubs_spec (beh : Behaviour Message) (fuel level : Nat) : ∀ (ms : List Message) (st st' : EqSubs), deliverSubs beh fuel level ms st = some st' →
    st.results.length = st.eq.delivered.length →
    st.results <+: st'.results ∧ st'.results.length = st'.eq.delivered.length ∧
      (∀ R, st'.results <+: R → st'.eq = { st.eq with delivered := deliverAll (recorded R) ms st.eq.delivered }) ∧
      ((∀ r ∈ st.results, r ≠ .error .keyError) → ∀ r ∈ st'.results, r ≠ .error .keyError)
  | [], st, st', h, hl => by
    cases h
    exact ⟨List.prefix_rfl, hl, fun R _ => rfl, fun h => h⟩
  | m :: l, st, st', h, hl => by
    unfold deliverSubs at h
    have hk := handleMessage_no_keyError beh fuel level m.name m st.ev
    generalize handleMessage beh fuel level m.name m st.ev = y at h hk
    obtain ⟨y, ev⟩ := y
    cases y with
    | none => cases h
    | some r =>
      have hne : (∀ r ∈ st.results, r ≠ .error .keyError) → ∀ x ∈ st.results ++ [r], x ≠ .error .keyError := by
        intro h0 x hx
        rcases List.mem_append.mp hx with hx | hx
        · exact h0 x hx
        · rw [List.mem_singleton.mp hx]
          exact fun h => hk (congrArg some h)
      cases r with
      | error e =>
        simp only [Option.some.injEq] at h
        subst h
        refine ⟨List.prefix_append _ _, by simp [hl], fun R hR => ?_, hne⟩
        simp only [deliverAll, recorded_at hl hR]
      | ok u =>
        simp only at h
        obtain ⟨h1, h2, h3, h4⟩ := deliverSubs_spec beh fuel level l _ st' h (by simp [hl])
        refine ⟨(List.prefix_append _ _).trans h1, h2, fun R hR => ?_, fun h0 => h4 (hne h0)⟩
        rw [h3 R hR]
        simp only [deliverAll, recorded_at hl (h1.trans hR)]

theorem eqPollSubs_spec (d : TemplateDict) (beh : Behaviour Message) (fuel level : Nat) (st st' : EqSubs) (p : List SubOp × PollOutcome)
    (h : eqPollSubs d beh fuel level st p = some st') (hl : st.results.length = st.eq.delivered.length) :
    st.results <+: st'.results ∧ st'.results.length = st'.eq.delivered.length ∧
      (∀ R, st'.results <+: R → st'.eq = eqPoll d (recorded R) st.eq p.2) ∧
      ((∀ r ∈ st.results, r ≠ .error .keyError) → ∀ r ∈ st'.results, r ≠ .error .keyError) := by
  have parse : ∀ (s s' : EqSubs) (data : Llsd), parseResultSubs d beh fuel level s data = some s' → s.results.length = s.eq.delivered.length →
      s.results <+: s'.results ∧ s'.results.length = s'.eq.delivered.length ∧
      (∀ R, s'.results <+: R → s'.eq = parseResult d (recorded R) s.eq data) ∧
      ((∀ r ∈ s.results, r ≠ .error .keyError) → ∀ r ∈ s'.results, r ≠ .error .keyError) := by
    intro s s' data h hl
    unfold parseResultSubs at h
    unfold parseResult
    split at h
    · rename_i hu
      simp only [if_pos hu]
      cases h
      exact ⟨List.prefix_rfl, hl, fun R _ => rfl, fun h => h⟩
    · rename_i hu
      simp only [if_neg hu]
      cases hd : decodeEqResult d s.eq.lastId data with
      | error e =>
        rw [hd] at h
        cases h
        exact ⟨List.prefix_rfl, hl, fun R _ => rfl, fun h => h⟩
      | ok ms =>
        rw [hd] at h
        exact deliverSubs_spec beh fuel level ms s s' h hl
  obtain ⟨ops, o⟩ := p
  unfold eqPollSubs at h
  unfold eqPoll
  cases o with
  | response v =>
    simp only at h ⊢
    split at h
    · rename_i hu
      simp only [if_pos hu]
      exact parse _ _ _ h hl
    · rename_i hu
      simp only [if_neg hu]
      cases hi : llsdItem v "id" with
      | ok i =>
        rw [hi] at h
        exact parse _ _ _ h hl
      | error e =>
        rw [hi] at h
        cases h
        exact ⟨List.prefix_rfl, hl, fun R _ => rfl, fun h => h⟩
  | failure x =>
    simp only at h ⊢
    split at h
    · rename_i hu
      simp only [if_pos hu]
      exact parse _ _ _ h hl
    · rename_i hu
      simp only [if_neg hu]
      cases hi : llsdItem st.eq.result "id" with
      | ok i =>
        rw [hi] at h
        exact parse _ _ _ h hl
      | error e =>
        rw [hi] at h
        cases h
        exact ⟨List.prefix_rfl, hl, fun R _ => rfl, fun h => h⟩

theorem eqPollsSubs_spec (d : TemplateDict) (beh : Behaviour Message) (fuel level : Nat) : ∀ (ps : List (List SubOp × PollOutcome)) (st st' : EqSubs),
    eqPollsSubs d beh fuel level ps st = some st' → st.results.length = st.eq.delivered.length →
    st.results <+: st'.results ∧ st'.results.length = st'.eq.delivered.length ∧
      (∀ R, st'.results <+: R → st'.eq = (ps.map (·.2)).foldl (eqPoll d (recorded R)) st.eq) ∧
      ((∀ r ∈ st.results, r ≠ .error .keyError) → ∀ r ∈ st'.results, r ≠ .error .keyError)
  | [], st, st', h, hl => by
    cases h
    exact ⟨List.prefix_rfl, hl, fun R _ => rfl, fun h => h⟩
  | p :: ps, st, st', h, hl => by
    unfold eqPollsSubs at h
    split at h
    · cases h
    · rename_i st1 h1
      obtain ⟨a1, a2, a3, a4⟩ := eqPollSubs_spec d beh fuel level st st1 p h1 hl
      obtain ⟨b1, b2, b3, b4⟩ := eqPollsSubs_spec d beh fuel level ps st1 st' h a2
      refine ⟨a1.trans b1, b2, fun R hR => ?_, fun h => b4 (a4 h)⟩
      rw [b3 R hR, List.map_cons, List.foldl_cons, a3 R (b1.trans hR)]

/-- How `processRegion` ends. -/
def endRegion (final : PollOutcome) (st : EqState) : Py Unit × EqState :=
  if isMinusOne st.lastId then (.ok (), { st with running := false })
  else
    match final with
    | .response _ => (.ok (), { st with posts := st.posts ++ [.map [("ack", st.lastId), ("done", .bool true)]], running := false })
    | .failure e => (.error e, { st with posts := st.posts ++ [.map [("ack", st.lastId), ("done", .bool true)]] })

/-! ## C108 -/

/-- **C108, same program.** With a message handler in place of the oracle, whatever its subscribers do and whatever other coroutines do to it meanwhile, the event queue does what it does with some
handler in the sense of C38, C39 and C62, and one that never raises a `KeyError`: such an exception of a subscriber does not keep the rest of a response from being handed over. -/
theorem C108_same (d : TemplateDict) (beh : Behaviour Message) (fuel level : Nat) (polls : List (List SubOp × PollOutcome)) (final : PollOutcome) (ev : EvState Message)
    (r : Py Unit) (st : EqSubs) (h : processRegionSubs d beh fuel level polls final { ev := ev } = some (r, st)) :
    ∃ hd : EqHandler, (∀ l, hd l ≠ .error .keyError) ∧ (r, st.eq) = processRegion d hd (polls.map (·.2)) final {} ∧
      st.results = (List.range st.eq.delivered.length).map (fun k => hd (st.eq.delivered.take (k + 1))) := by
  unfold processRegionSubs at h
  split at h
  · cases h
  · rename_i st1 h1
    obtain ⟨-, a2, a3, a4⟩ := eqPollsSubs_spec d beh fuel level polls _ st1 h1 rfl
    have hst : st.results = st1.results ∧ st.eq.delivered = st1.eq.delivered ∧
        (r, st.eq) = processRegion d (recorded st1.results) (polls.map (·.2)) final {} := by
      have e : (polls.map (·.2)).foldl (eqPoll d (recorded st1.results)) { running := true } = st1.eq := (a3 _ List.prefix_rfl).symm
      have e' : processRegion d (recorded st1.results) (polls.map (·.2)) final {} = endRegion final st1.eq := by rw [← e]; rfl
      rw [e']
      unfold endRegion
      split at h
      · rename_i hi
        cases h
        exact ⟨rfl, rfl, by rw [if_pos hi]⟩
      · rename_i hi
        cases final <;> cases h <;> exact ⟨rfl, rfl, by rw [if_neg hi]⟩
    refine ⟨recorded st1.results, fun l => ?_, hst.2.2, ?_⟩
    · unfold recorded
      cases hg : st1.results[l.length - 1]? with
      | none => simp
      | some x => exact a4 (by simp) x (List.mem_of_getElem? hg)
    · rw [hst.1, hst.2.1, ← a2]
      apply List.ext_getElem?
      intro k
      by_cases hk : k < st1.results.length
      · rw [List.getElem?_map, List.getElem?_range hk]
        simp only [Option.map_some, recorded, List.length_take]
        rw [show min (k + 1) st1.eq.delivered.length - 1 = k by omega, List.getElem?_eq_getElem hk]
        rfl
      · rw [List.getElem?_eq_none (by omega), List.getElem?_eq_none (by simp; omega)]

/-! ## Who is called -/

theorem run_noRaise {α : Type} (fire : String → α → EvState α → Option (Py Unit) × EvState α) : ∀ (p : EvProg α) (st : EvState α), NoRaise p →
    ∀ e, (p.run fire st).1 ≠ some (.error e)
  | .done, _, _, _ => by simp [EvProg.run]
  | .raise _, _, h, _ => absurd h id
  | .subscribe _ _ k, _, h, e => run_noRaise fire k _ h e
  | .unsubscribe _ _ k, _, h, e => run_noRaise fire (k _) _ (h _) e
  | .register _ k, _, h, e => run_noRaise fire k _ h e
  | .fire ev x k, st, h, e => by
    unfold EvProg.run
    split
    · simp
    · rename_i r st1 _
      exact run_noRaise fire (k r) st1 (h r) e

theorem loop_noRaise {α : Type} {beh : Behaviour α} (hb : ∀ tr, NoRaise (beh tr)) (fire : String → α → EvState α → Option (Py Unit) × EvState α) (level : Nat)
    (ev : String) (x : α) : ∀ (fuel i : Nat) (st : EvState α) (e : Exc), (notifyLoop beh fire level ev x fuel i st).1 ≠ some (.error e)
  | 0, _, _, _ => by simp [notifyLoop]
  | fuel + 1, i, st, e => by
    unfold notifyLoop
    split
    · simp
    · rename_i s hs
      have := run_noRaise fire (beh (st.log ⟨level, ev, s.handler, (x, s.args), s.kwargs⟩).calls) (st.log ⟨level, ev, s.handler, (x, s.args), s.kwargs⟩) (hb _)
      simp only
      split
      · exact loop_noRaise hb fire level ev x fuel (i + 1) _ e
      · rename_i e' st' he
        exact absurd (by rw [he]) (this e')
      · simp

/-- A message whose subscribers leave everything alone. -/
theorem handle_quiet {beh : Behaviour Message} (hq : Quietly beh) (fuel level : Nat) (m : Message) (st st' : EvState Message) (r : Py Unit)
    (h0 : ∀ n, n ∉ st.names → st.subs n = []) (h : handleMessage beh fuel (level + 1) m.name m st = (some r, st')) :
    r = .ok () ∧ st'.subs = st.subs ∧ (∀ n, n ∉ st'.names → st'.subs n = []) ∧
      callsAt (level + 1) st'.calls = callsAt (level + 1) st.calls ++ (st.subs m.name).map (callOf (level + 1) m.name m) := by
  by_cases hs : m.name ∉ st.names ∨ st.subs m.name = []
  · have he : st.subs m.name = [] := hs.elim (h0 _) id
    rw [C37_unhandled beh fuel (level + 1) m.name m st hs] at h
    cases h
    exact ⟨rfl, rfl, h0, by simp [he]⟩
  · have hn : m.name ∈ st.names := by
      by_cases hx : m.name ∈ st.names
      · exact hx
      · exact absurd (.inl hx) hs
    have hl : 0 < (st.subs m.name).length := List.length_pos_iff.mpr (fun hx => hs (.inr hx))
    simp only [handleMessage, hn, hl, if_true] at h
    have hne := loop_noRaise (fun tr => (hq tr).1) (notifyAt beh fuel level) (level + 1) m.name m fuel 0 st
    have hno : notifyAt beh fuel (level + 1) m.name m st = (some r, st') := by
      split at h
      · rename_i he
        exact absurd (congrArg Prod.fst he) (hne _)
      · exact h
    have hr : r = .ok () := by
      cases r with
      | ok u => rfl
      | error e => exact absurd (congrArg Prod.fst hno) (hne e)
    subst hr
    have hsubs : st'.subs = st.subs := by
      funext n
      have := notifyAt_preserves (fixed_closed (level + 1) n (st.subs n)) (fun tr => within_of_both ((hq tr).2 n).2 ((hq tr).2 n).1) fuel (level + 1)
        (Nat.le_refl _) m.name m st rfl
      rw [hno] at this
      exact this
    refine ⟨rfl, hsubs, fun n hn' => ?_, (C33_exactly_subscribers beh m.name (fun tr => ((hq tr).2 m.name).2) (fun tr => ((hq tr).2 m.name).1) fuel level m st st' hno).1⟩
    rw [hsubs]
    apply h0
    intro hmem
    have := C37_registration_kept beh fuel (level + 1) m.name m st n (by simpa [isMessageHandled] using hmem)
    rw [hno] at this
    exact hn' (by simpa [isMessageHandled] using this)

theorem deliver_quiet {beh : Behaviour Message} (hq : Quietly beh) (fuel level : Nat) : ∀ (ms : List Message) (st st' : EqSubs),
    deliverSubs beh fuel (level + 1) ms st = some st' → (∀ n, n ∉ st.ev.names → st.ev.subs n = []) →
    st'.eq = { st.eq with delivered := st.eq.delivered ++ ms } ∧ st'.ev.subs = st.ev.subs ∧ (∀ n, n ∉ st'.ev.names → st'.ev.subs n = []) ∧
      callsAt (level + 1) st'.ev.calls = callsAt (level + 1) st.ev.calls ++ callsFor (level + 1) st.ev.subs ms
  | [], st, st', h, h0 => by
    cases h
    exact ⟨by simp, rfl, h0, by simp [callsFor]⟩
  | m :: l, st, st', h, h0 => by
    unfold deliverSubs at h
    generalize hy : handleMessage beh fuel (level + 1) m.name m st.ev = y at h
    obtain ⟨y, ev⟩ := y
    cases y with
    | none => cases h
    | some r =>
      obtain ⟨rfl, a2, a3, a4⟩ := handle_quiet hq fuel level m st.ev ev r h0 hy
      simp only at h
      obtain ⟨b1, b2, b3, b4⟩ := deliver_quiet hq fuel level l _ st' h a3
      refine ⟨by rw [b1]; simp, b2.trans a2, b3, ?_⟩
      rw [b4]
      simp only [a4, a2, callsFor, List.flatMap_cons, List.append_assoc]

/-- Subscriptions only exist for registered names. -/
def Registered (ev : EvState Message) : Prop := ∀ n, n ∉ ev.names → ev.subs n = []

theorem mem_register (st : EvState Message) (n m : String) : m ∈ (register st n).names ↔ m ∈ st.names ∨ m = n := by
  unfold register
  split
  · rename_i h
    exact ⟨.inl, fun hm => hm.elim id (fun e => e ▸ h)⟩
  · simp

theorem register_subs (st : EvState Message) (n : String) : (register st n).subs = st.subs ∧ (register st n).calls = st.calls := by
  unfold register
  split <;> exact ⟨rfl, rfl⟩

theorem subOps_spec : ∀ (ops : List SubOp) (st : EvState Message), Registered st →
    Registered (ops.foldl SubOp.apply st) ∧ (ops.foldl SubOp.apply st).subs = subsAfter st.subs ops ∧ (ops.foldl SubOp.apply st).calls = st.calls
  | [], st, h => ⟨h, rfl, rfl⟩
  | op :: ops, st, h => by
    rw [List.foldl_cons]
    cases op with
    | register n =>
      obtain ⟨a, b, c⟩ := subOps_spec ops (register st n) (fun m hm => by
        rw [(register_subs st n).1]
        exact h m (fun hx => hm ((mem_register st n m).mpr (.inl hx))))
      exact ⟨a, by rw [SubOp.apply, b, (register_subs st n).1]; rfl, c.trans (register_subs st n).2⟩
    | subscribe n s =>
      obtain ⟨a, b, c⟩ := subOps_spec ops ((register st n).setSubs n (eventSubscribe (st.subs n) s)) (fun m hm => by
        have hm' : m ∉ (register st n).names := hm
        rw [mem_register, not_or] at hm'
        simp only [EvState.setSubs, if_neg hm'.2, (register_subs st n).1]
        exact h m hm'.1)
      refine ⟨a, ?_, c.trans (register_subs st n).2⟩
      rw [SubOp.apply, b]
      show subsAfter (fun k => if k = n then eventSubscribe (st.subs n) s else (register st n).subs k) ops = subsAfter (fun k => if k = n then st.subs k ++ [s] else st.subs k) ops
      rw [(register_subs st n).1]
      congr 1
      funext k
      by_cases hk : k = n
      · simp [hk, eventSubscribe]
      · simp [hk]
    | «unsubscribe» n s =>
      have he : (eventUnsubscribe (st.subs n) s).2 = (st.subs n).erase s := by
        unfold eventUnsubscribe
        split
        · rfl
        · rename_i hn
          exact (List.erase_of_not_mem hn).symm
      obtain ⟨a, b, c⟩ := subOps_spec ops (st.setSubs n (eventUnsubscribe (st.subs n) s).2) (fun m hm => by
        have hm' : m ∉ st.names := hm
        simp only [EvState.setSubs, he]
        split
        · rename_i hk
          rw [← hk, h m hm']
          rfl
        · exact h m hm')
      refine ⟨a, ?_, c⟩
      rw [SubOp.apply, b]
      show subsAfter (fun k => if k = n then (eventUnsubscribe (st.subs n) s).2 else st.subs k) ops = subsAfter (fun k => if k = n then (st.subs k).erase s else st.subs k) ops
      rw [he]
      congr 1
      funext k
      by_cases hk : k = n
      · simp [hk]
      · simp [hk]

theorem poll_quiet {beh : Behaviour Message} (hq : Quietly beh) (fuel level : Nat) (d : TemplateDict) (ops : List SubOp) (o : PollOutcome) (st st1 : EqSubs)
    (h1 : eqPollSubs d beh fuel (level + 1) st (ops, o) = some st1) (hr : Registered st.ev) :
    ∃ ms, st1.eq.delivered = st.eq.delivered ++ ms ∧ st1.ev.subs = subsAfter st.ev.subs ops ∧ Registered st1.ev ∧
      callsAt (level + 1) st1.ev.calls = callsAt (level + 1) st.ev.calls ++ callsFor (level + 1) (subsAfter st.ev.subs ops) ms ∧
      st1.eq = eqPoll d (fun _ => .ok ()) st.eq o := by
  have deliver : ∀ (ms done : List Message), deliverAll (fun _ => .ok ()) ms done = done ++ ms := by
    intro ms
    induction ms with
    | nil => intro done; simp [deliverAll]
    | cons m l ih => intro done; simp only [deliverAll, ih]; simp
  have parse : ∀ (s s' : EqSubs) (data : Llsd), parseResultSubs d beh fuel (level + 1) s data = some s' → (∀ n, n ∉ s.ev.names → s.ev.subs n = []) →
      ∃ ms, s'.eq.delivered = s.eq.delivered ++ ms ∧ s'.ev.subs = s.ev.subs ∧ (∀ n, n ∉ s'.ev.names → s'.ev.subs n = []) ∧
        callsAt (level + 1) s'.ev.calls = callsAt (level + 1) s.ev.calls ++ callsFor (level + 1) s.ev.subs ms ∧
        s'.eq = parseResult d (fun _ => .ok ()) s.eq data := by
    intro s s' data h h0
    unfold parseResultSubs at h
    unfold parseResult
    split at h
    · rename_i hu
      cases h
      exact ⟨[], by simp, rfl, h0, by simp [callsFor], by rw [if_pos hu]⟩
    · rename_i hu
      rw [if_neg hu]
      cases hd : decodeEqResult d s.eq.lastId data with
      | error e =>
        rw [hd] at h
        cases h
        exact ⟨[], by simp, rfl, h0, by simp [callsFor], rfl⟩
      | ok ms =>
        rw [hd] at h
        obtain ⟨a1, a2, a3, a4⟩ := deliver_quiet hq fuel level ms s s' h h0
        exact ⟨ms, by rw [a1], a2, a3, a4, by rw [a1]; simp only [deliver]⟩
  obtain ⟨h0, hsubs, hcalls⟩ := subOps_spec ops st.ev hr
  rw [← hsubs, ← hcalls]
  unfold eqPollSubs at h1
  unfold eqPoll
  cases o with
  | response v =>
    simp only at h1 ⊢
    split at h1
    · rename_i hu
      rw [if_pos hu]
      exact parse _ _ _ h1 h0
    · rename_i hu
      rw [if_neg hu]
      cases hi : llsdItem v "id" with
      | ok i =>
        rw [hi] at h1
        exact parse _ _ _ h1 h0
      | error e =>
        rw [hi] at h1
        cases h1
        exact ⟨[], by simp, rfl, h0, by simp [callsFor], rfl⟩
  | failure x =>
    simp only at h1 ⊢
    split at h1
    · rename_i hu
      rw [if_pos hu]
      exact parse _ _ _ h1 h0
    · rename_i hu
      rw [if_neg hu]
      cases hi : llsdItem st.eq.result "id" with
      | ok i =>
        rw [hi] at h1
        exact parse _ _ _ h1 h0
      | error e =>
        rw [hi] at h1
        cases h1
        exact ⟨[], by simp, rfl, h0, by simp [callsFor], rfl⟩

theorem polls_quiet {beh : Behaviour Message} (hq : Quietly beh) (fuel level : Nat) (d : TemplateDict) : ∀ (polls : List (List SubOp × PollOutcome))
    (meant : List (Option (Llsd × List Event))), List.Forall₂ (IsPoll d) (polls.map (·.2)) meant → ∀ (st st' : EqSubs) (cur : Option (Llsd × List Event)),
    (match cur with | none => st.eq.result = .undef | some (id, evs) => IsResponse (Known d) st.eq.result id evs) →
    eqPollsSubs d beh fuel (level + 1) polls st = some st' → Registered st.ev →
    callsAt (level + 1) st'.ev.calls = callsAt (level + 1) st.ev.calls ++ callsAlong (level + 1) st.ev.subs cur ((polls.map (·.1)).zip meant)
  | [], meant, hp, st, st', cur, _, h, _ => by
    cases h
    simp [callsAlong]
  | (ops, o) :: polls, meant, hp, st, st', cur, hc, h, hr => by
    rw [List.map_cons] at hp
    cases hp with
    | @cons _ m _ meant hom hp =>
      unfold eqPollsSubs at h
      split at h
      · cases h
      · rename_i st1 h1
        obtain ⟨ms, a1, a2, a3, a4, a5⟩ := poll_quiet hq fuel level d ops o st st1 h1 hr
        have hcur : (match m.or cur with | none => st1.eq.result = .undef | some (id, evs) => IsResponse (Known d) st1.eq.result id evs) ∧
            ms = ((m.or cur).map responseMessages).getD [] := by
          rw [a5]
          rw [a5] at a1
          cases o with
          | response v =>
            cases m with
            | none => exact hom.elim
            | some r =>
              obtain ⟨id, evs⟩ := r
              have hv : IsResponse (Known d) v id evs := hom
              refine ⟨by rw [Option.some_or, eqPoll_result]; exact hv, ?_⟩
              rw [poll_delivers d _ (fun _ => rfl) st.eq _ v id evs rfl hv] at a1
              exact (List.append_cancel_left a1).symm
          | failure e =>
            cases m with
            | some r => exact hom.elim
            | none =>
              rw [Option.none_or]
              cases cur with
              | none =>
                refine ⟨by rw [eqPoll_result]; exact hc, ?_⟩
                have hx : st.eq.result = .undef := hc
                have : (eqPoll d (fun _ => .ok ()) st.eq (.failure e)).delivered = st.eq.delivered := by simp [eqPoll, hx, parseResult]
                rw [this] at a1
                exact List.append_cancel_left (a1.symm.trans (List.append_nil _).symm)
              | some r =>
                obtain ⟨id, evs⟩ := r
                have hv : IsResponse (Known d) st.eq.result id evs := hc
                refine ⟨by rw [eqPoll_result]; exact hv, ?_⟩
                rw [poll_delivers d _ (fun _ => rfl) st.eq _ st.eq.result id evs rfl hv] at a1
                exact (List.append_cancel_left a1).symm
        have hi := polls_quiet hq fuel level d polls meant hp st1 st' (m.or cur) hcur.1 h a3
        rw [hi, a4, a2, hcur.2, List.map_cons, List.zip_cons_cons, callsAlong, List.append_assoc]

/-- **C108, who is called.** If the subscribers return normally and leave subscriptions alone, then for all sequences of responses and failed polls, and whatever other coroutines subscribe and
unsubscribe meanwhile, every event (again after every failed poll that follows its response) leads to one call per subscription to its name at that moment, in order, with the message, and to no
other calls. -/
theorem C108_calls (d : TemplateDict) (beh : Behaviour Message) (hq : Quietly beh) (fuel level : Nat) (polls : List (List SubOp × PollOutcome))
    (meant : List (Option (Llsd × List Event))) (hp : List.Forall₂ (IsPoll d) (polls.map (·.2)) meant) (final : PollOutcome) (ev : EvState Message)
    (h0 : ∀ n, n ∉ ev.names → ev.subs n = []) (r : Py Unit) (st : EqSubs)
    (h : processRegionSubs d beh fuel (level + 1) polls final { ev := ev } = some (r, st)) :
    callsAt (level + 1) st.ev.calls = callsAt (level + 1) ev.calls ++ callsAlong (level + 1) ev.subs none ((polls.map (·.1)).zip meant) := by
  unfold processRegionSubs at h
  split at h
  · cases h
  · rename_i st1 h1
    have := polls_quiet hq fuel level d polls meant hp _ st1 none rfl h1 h0
    have hev : st.ev = st1.ev := by
      split at h
      · cases h; rfl
      · cases final <;> cases h <;> rfl
    rw [hev, this]

/-- Without other coroutines these are the calls for the messages of C39. -/
theorem C108_calls_alone (d : TemplateDict) (beh : Behaviour Message) (hq : Quietly beh) (fuel level : Nat) (polls : List PollOutcome)
    (meant : List (Option (Llsd × List Event))) (hp : List.Forall₂ (IsPoll d) polls meant) (final : PollOutcome) (ev : EvState Message)
    (h0 : ∀ n, n ∉ ev.names → ev.subs n = []) (r : Py Unit) (st : EqSubs)
    (h : processRegionSubs d beh fuel (level + 1) (polls.map (([], ·))) final { ev := ev } = some (r, st)) :
    callsAt (level + 1) st.ev.calls = callsAt (level + 1) ev.calls ++ callsFor (level + 1) ev.subs (withRedelivery none meant) := by
  have key : ∀ (meant : List (Option (Llsd × List Event))) (polls : List PollOutcome) (cur : Option (Llsd × List Event)), polls.length = meant.length →
      callsAlong (level + 1) ev.subs cur (((polls.map (fun x => (([] : List SubOp), x))).map (·.1)).zip meant) = callsFor (level + 1) ev.subs (withRedelivery cur meant) := by
    intro meant
    induction meant with
    | nil => intro polls cur _; cases cur <;> simp [callsAlong, withRedelivery, callsFor]
    | cons m meant ih =>
      intro polls cur hl
      cases polls with
      | nil => simp at hl
      | cons o polls =>
        simp only [List.map_cons, List.zip_cons_cons, callsAlong, subsAfter]
        rw [ih polls _ (by simpa using hl)]
        cases m <;> cases cur <;> simp [withRedelivery, callsFor]
  have hp' : List.Forall₂ (IsPoll d) ((polls.map (fun x => (([] : List SubOp), x))).map (·.2)) meant := by
    rw [List.map_map]
    simpa [Function.comp_def] using hp
  rw [C108_calls d beh hq fuel level _ meant hp' final ev h0 r st h, key meant polls none hp.length_eq]

/-- **C108, any polls.** The same whatever the polls bring (responses that are not understood, too): the messages handed over are called out poll by poll, each to the subscriptions to its name at that
moment; and the subscriptions left at the end are those the other coroutines made. -/
theorem C108_any_polls (d : TemplateDict) (beh : Behaviour Message) (hq : Quietly beh) (fuel level : Nat) (polls : List (List SubOp × PollOutcome)) (final : PollOutcome)
    (ev : EvState Message) (h0 : ∀ n, n ∉ ev.names → ev.subs n = []) (r : Py Unit) (st : EqSubs)
    (h : processRegionSubs d beh fuel (level + 1) polls final { ev := ev } = some (r, st)) :
    ∃ groups : List (List Message), groups.length = polls.length ∧ groups.flatten = (processRegion d (fun _ => .ok ()) (polls.map (·.2)) final {}).2.delivered ∧
      st.eq.delivered = groups.flatten ∧ st.ev.subs = subsAfter ev.subs (polls.flatMap (·.1)) ∧
      callsAt (level + 1) st.ev.calls = callsAt (level + 1) ev.calls ++ callsOver (level + 1) ev.subs ((polls.map (·.1)).zip groups) := by
  have app : ∀ (a b : List SubOp) (subs : String → List Sub), subsAfter subs (a ++ b) = subsAfter (subsAfter subs a) b := by
    intro a
    induction a with
    | nil => intro b subs; rfl
    | cons x a ih => intro b subs; cases x <;> exact ih b _
  have loop : ∀ (polls : List (List SubOp × PollOutcome)) (s s' : EqSubs), Registered s.ev → eqPollsSubs d beh fuel (level + 1) polls s = some s' →
      ∃ groups : List (List Message), groups.length = polls.length ∧ s'.eq = (polls.map (·.2)).foldl (eqPoll d (fun _ => .ok ())) s.eq ∧
        s'.eq.delivered = s.eq.delivered ++ groups.flatten ∧ s'.ev.subs = subsAfter s.ev.subs (polls.flatMap (·.1)) ∧
        callsAt (level + 1) s'.ev.calls = callsAt (level + 1) s.ev.calls ++ callsOver (level + 1) s.ev.subs ((polls.map (·.1)).zip groups) := by
    intro polls
    induction polls with
    | nil =>
      intro s s' _ h
      cases h
      exact ⟨[], rfl, rfl, by simp, rfl, by simp [callsOver]⟩
    | cons p polls ih =>
      intro s s' hr h
      obtain ⟨ops, o⟩ := p
      unfold eqPollsSubs at h
      split at h
      · cases h
      · rename_i s1 h1
        obtain ⟨ms, a1, a2, a3, a4, a5⟩ := poll_quiet hq fuel level d ops o s s1 h1 hr
        obtain ⟨groups, b1, b2, b3, b4, b5⟩ := ih s1 s' a3 h
        refine ⟨ms :: groups, by simp [b1], by rw [b2, a5]; rfl, by rw [b3, a1]; simp, ?_, ?_⟩
        · rw [b4, a2, List.flatMap_cons, app]
        · rw [b5, a4, a2, List.map_cons, List.zip_cons_cons, callsOver, List.append_assoc]
  unfold processRegionSubs at h
  split at h
  · cases h
  · rename_i st1 h1
    obtain ⟨groups, a1, a2, a3, a4, a5⟩ := loop polls { eq := { running := true }, ev := ev } st1 h0 h1
    have hst : st.ev = st1.ev ∧ st.eq.delivered = st1.eq.delivered := by
      split at h
      · cases h; exact ⟨rfl, rfl⟩
      · cases final <;> cases h <;> exact ⟨rfl, rfl⟩
    have hd : st1.eq.delivered = groups.flatten := a3
    refine ⟨groups, a1, ?_, hst.2.trans hd, by rw [hst.1]; exact a4, by rw [hst.1]; exact a5⟩
    have e' : processRegion d (fun _ => .ok ()) (polls.map (·.2)) final {} = endRegion final st1.eq := by rw [a2]; rfl
    rw [e', ← hd]
    unfold endRegion
    split
    · rfl
    · cases final <;> rfl

/-- **C108, it returns.** With such subscribers every message is dealt with: no handler runs forever. -/
theorem C108_returns (d : TemplateDict) (beh : Behaviour Message) (hq : Quietly beh) (N fuel level : Nat) (hfuel : N < fuel) (polls : List (List SubOp × PollOutcome))
    (final : PollOutcome) (ev : EvState Message) (h0 : ∀ n, n ∉ ev.names → ev.subs n = []) (hN : ∀ n, (ev.subs n).length + (polls.flatMap (·.1)).length ≤ N) :
    (processRegionSubs d beh fuel (level + 1) polls final { ev := ev }).isSome = true := by
  have handle : ∀ (m : Message) (st : EvState Message), (∀ n, (st.subs n).length ≤ N) → (handleMessage beh fuel (level + 1) m.name m st).1.isSome = true := by
    intro m st hst
    have := C35_terminates beh (fun tr e => ((hq tr).2 e).1) N fuel hfuel (level + 1) m.name m st hst
    unfold handleMessage
    split
    · split
      · split
        · rfl
        · exact this
      · rfl
    · rfl
  have deliver : ∀ (ms : List Message) (s : EqSubs), (∀ n, n ∉ s.ev.names → s.ev.subs n = []) → (∀ n, (s.ev.subs n).length ≤ N) →
      (deliverSubs beh fuel (level + 1) ms s).isSome = true := by
    intro ms
    induction ms with
    | nil => intro s _ _; rfl
    | cons m l ih =>
      intro s hs hn
      have h1 := handle m s.ev hn
      unfold deliverSubs
      generalize hy : handleMessage beh fuel (level + 1) m.name m s.ev = y at h1
      obtain ⟨y, ev'⟩ := y
      cases y with
      | none => cases h1
      | some r =>
        obtain ⟨rfl, a2, a3, -⟩ := handle_quiet hq fuel level m s.ev ev' r hs hy
        exact ih _ a3 (fun n => by simp only [a2]; exact hn n)
  have parse : ∀ (s : EqSubs) (data : Llsd), (∀ n, n ∉ s.ev.names → s.ev.subs n = []) → (∀ n, (s.ev.subs n).length ≤ N) →
      (parseResultSubs d beh fuel (level + 1) s data).isSome = true := by
    intro s data hs hn
    unfold parseResultSubs
    split
    · rfl
    · split
      · exact deliver _ s hs hn
      · rfl
  have len : ∀ (ops : List SubOp) (subs : String → List Sub) (n : String), (subsAfter subs ops n).length ≤ (subs n).length + ops.length := by
    intro ops
    induction ops with
    | nil => intro subs n; exact Nat.le_refl _
    | cons op ops ih =>
      intro subs n
      cases op with
      | register m =>
        have := ih subs n
        simp only [subsAfter, List.length_cons]
        omega
      | subscribe m s =>
        have := ih (fun k => if k = m then subs k ++ [s] else subs k) n
        simp only [subsAfter, List.length_cons]
        refine Nat.le_trans this ?_
        split <;> simp <;> omega
      | «unsubscribe» m s =>
        have := ih (fun k => if k = m then (subs k).erase s else subs k) n
        simp only [subsAfter, List.length_cons]
        refine Nat.le_trans this ?_
        have := List.length_erase_le (a := s) (l := subs n)
        split <;> omega
  have loop : ∀ (polls : List (List SubOp × PollOutcome)) (s : EqSubs), Registered s.ev → (∀ n, (s.ev.subs n).length + (polls.flatMap (·.1)).length ≤ N) →
      (eqPollsSubs d beh fuel (level + 1) polls s).isSome = true := by
    intro polls
    induction polls with
    | nil => intro s _ _; rfl
    | cons p polls ih =>
      intro s hr hn
      obtain ⟨ops, o⟩ := p
      simp only [List.flatMap_cons, List.length_append] at hn
      obtain ⟨hs, hsubs, -⟩ := subOps_spec ops s.ev hr
      have hb : ∀ n, ((ops.foldl SubOp.apply s.ev).subs n).length ≤ N := by
        intro n
        rw [hsubs]
        have := len ops s.ev.subs n
        have := hn n
        omega
      have h1 : (eqPollSubs d beh fuel (level + 1) s (ops, o)).isSome = true := by
        unfold eqPollSubs
        cases o with
        | response v =>
          dsimp only
          split
          · exact parse _ _ hs hb
          · cases llsdItem v "id" with
            | ok i => exact parse _ _ hs hb
            | error e => rfl
        | failure x =>
          dsimp only
          split
          · exact parse _ _ hs hb
          · cases llsdItem s.eq.result "id" with
            | ok i => exact parse _ _ hs hb
            | error e => rfl
      unfold eqPollsSubs
      generalize hy : eqPollSubs d beh fuel (level + 1) s (ops, o) = y at h1
      cases y with
      | none => cases h1
      | some s1 =>
        obtain ⟨-, -, a2, a3, -⟩ := poll_quiet hq fuel level d ops o s s1 hy hr
        refine ih s1 a3 (fun n => ?_)
        rw [a2]
        have := len ops s.ev.subs n
        have := hn n
        omega
  have := loop polls { eq := { running := true }, ev := ev } h0 hN
  unfold processRegionSubs
  generalize hy : eqPollsSubs d beh fuel (level + 1) polls { eq := { running := true }, ev := ev } = y at this
  simp only
  cases y with
  | none => cases this
  | some s =>
    simp only
    split
    · rfl
    · cases final <;> rfl

/-! ## Examples -/

/-- Two subscribers to `PacketAck`, one to `ChatterBoxInvitation`. -/
def eqSubsDemo : EvState Message :=
  { names := ["PacketAck", "ChatterBoxInvitation"],
    subs := fun n => if n = "PacketAck" then [⟨1, [10], []⟩, ⟨2, [], []⟩] else if n = "ChatterBoxInvitation" then [⟨3, [], []⟩] else [] }

/-- All hypotheses of `C108_calls` and `C108_returns` together: a response, then another coroutine subscribes and a poll fails, then a second response. -/
example : Quietly (fun _ => .done) ∧ List.Forall₂ (IsPoll dispDict)
      ([([], .response (demoResponse 5)), ([.subscribe "PacketAck" ⟨4, [], []⟩], .failure (.httpError 502)), ([.unsubscribe "PacketAck" ⟨2, [], []⟩], .response (demoResponse 6))].map
        (Prod.snd (α := List SubOp)))
      [some (.int 5, [demoAckEvent, demoChatEvent]), none, some (.int 6, [demoAckEvent, demoChatEvent])] ∧
    (∀ n, n ∉ eqSubsDemo.names → eqSubsDemo.subs n = []) ∧
    ((processRegionSubs dispDict (fun _ => .done) 10 3 [([], .response (demoResponse 5)), ([.subscribe "PacketAck" ⟨4, [], []⟩], .failure (.httpError 502)),
        ([.unsubscribe "PacketAck" ⟨2, [], []⟩], .response (demoResponse 6))] (.response .undef) { ev := eqSubsDemo }).map
      (fun r => (r.2.ev.calls.map (fun c => (c.event, c.handler)), r.2.eq.lastId)) =
      some ([("PacketAck", 1), ("PacketAck", 2), ("ChatterBoxInvitation", 3), ("PacketAck", 1), ("PacketAck", 2), ("PacketAck", 4), ("ChatterBoxInvitation", 3),
        ("PacketAck", 1), ("PacketAck", 4), ("ChatterBoxInvitation", 3)], .int 6)) := by
  refine ⟨fun tr => ⟨trivial, fun _ => ⟨trivial, trivial⟩⟩, .cons (demo_isResponse 5) (.cons trivial (.cons (demo_isResponse 6) .nil)), ?_, by decide +kernel⟩
  intro n hn
  simp only [eqSubsDemo, List.mem_cons, List.not_mem_nil, or_false, not_or] at hn ⊢
  rw [if_neg hn.1, if_neg hn.2]

/-- The calls for handler 1 raise `e`. -/
def raising (e : Exc) : Behaviour Message := fun tr =>
  match tr.getLast? with
  | some c => if c.handler = 1 then .raise e else .done
  | none => .done

/-- A `KeyError` of the first subscriber keeps the second from being called, but not the next message from being handed over; any other exception does. -/
example : ((processRegionSubs dispDict (raising .keyError) 10 3 [([], .response (demoResponse 5))] (.response .undef) { ev := eqSubsDemo }).map
      (fun r => (r.2.ev.calls.map (·.handler), r.2.eq.delivered.map (·.name), r.2.results)) =
      some ([1, 3], ["PacketAck", "ChatterBoxInvitation"], [.ok (), .ok ()])) ∧
    ((processRegionSubs dispDict (raising (.user 7)) 10 3 [([], .response (demoResponse 5))] (.response .undef) { ev := eqSubsDemo }).map
      (fun r => (r.2.ev.calls.map (·.handler), r.2.eq.delivered.map (·.name), r.2.results)) =
      some ([1], ["PacketAck"], [.error (.user 7)])) := by decide +kernel

end Pyogp
