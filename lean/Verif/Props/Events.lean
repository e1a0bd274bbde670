import Verif.Proofs.Events
import Verif.Model.Message

/-! # C33–C37: events and message subscriptions -/

namespace Pyogp
open Spec
variable {α : Type}

/-! ## C33 -/

theorem calls_closed (d : Nat) (c0 : List (Call α)) :
    EvClosed d (fun _ => True) (fun _ => True) (fun st : EvState α => callsAt (d + 1) st.calls = c0) := by
  refine ⟨fun st e s _ h => h, fun st e s _ h => h, ?_, ?_⟩
  · rintro st e h
    unfold register
    split <;> exact h
  · rintro st c hc h
    simp only [EvState.log]
    rw [callsAt_append, h]
    have : callsAt (d + 1) [c] = [] := by
      simp only [callsAt, List.filter_cons, List.filter_nil]
      rw [if_neg]
      simp only [decide_eq_true_eq]
      omega
    rw [this, List.append_nil]

theorem loop_visits (beh : Behaviour α) (ev : String) (fuel0 level : Nat) (x : α) : ∀ (fuel i : Nat) (st st' : EvState α) (r : Py Unit),
    notifyLoop beh (notifyAt beh fuel0 level) (level + 1) ev x fuel i st = (some r, st') →
    ∃ called j, Visits (Handled beh (notifyAt beh fuel0 level) (level + 1) ev x) ev i st called j st' ∧
      callsAt (level + 1) st'.calls = callsAt (level + 1) st.calls ++ called.map (callOf (level + 1) ev x) ∧
      ((r = .ok () ∧ (st'.subs ev).length ≤ j) ∨
        ∃ e s s1, r = .error e ∧ called.getLast? = some s ∧ s1.calls.getLast? = some (callOf (level + 1) ev x s) ∧
          (beh s1.calls).run (notifyAt beh fuel0 level) s1 = (some (.error e), st')) := by
  intro fuel
  induction fuel with
  | zero => intro i st st' r h; simp [notifyLoop] at h
  | succ fuel ih =>
    intro i st st' r h
    unfold notifyLoop at h
    split at h
    · rename_i hnone
      simp only [Prod.mk.injEq, Option.some.injEq] at h
      obtain ⟨rfl, rfl⟩ := h
      exact ⟨[], i, .here _ _, by simp, .inl ⟨rfl, List.getElem?_eq_none_iff.mp hnone⟩⟩
    · rename_i s hs
      simp only at h
      generalize hst1 : st.log ⟨level + 1, ev, s.handler, (x, s.args), s.kwargs⟩ = st1 at h
      have hst1' : st1 = { st with calls := st.calls ++ [callOf (level + 1) ev x s] } := hst1.symm
      have hlast : st1.calls.getLast? = some (callOf (level + 1) ev x s) := by rw [← hst1]; simp [callOf, EvState.log]
      have hcalls1 : callsAt (level + 1) st1.calls = callsAt (level + 1) st.calls ++ [callOf (level + 1) ev x s] := by
        rw [← hst1]
        simp only [EvState.log]
        rw [callsAt_append]
        simp [callsAt, callOf]
      have hP := EvProg.run_preserves (calls_closed level (callsAt (level + 1) st1.calls))
        (notifyAt_preserves (calls_closed level _) (fun tr => within_any (beh tr)) fuel0 level (Nat.le_refl _))
        (beh st1.calls) st1 (within_any _) rfl
      split at h
      · rename_i st2 hr
        rw [hr] at hP
        obtain ⟨called, j, hv, hc, ho⟩ := ih (i + 1) st2 st' r h
        refine ⟨s :: called, j, .step hs ⟨_, hst1' ▸ hr⟩ hv, ?_, ?_⟩
        · rw [hc, hP, hcalls1]; simp
        · rcases ho with h1 | ⟨e, s', s1, h1, h2, h3, h4⟩
          · exact .inl h1
          · refine .inr ⟨e, s', s1, h1, ?_, h3, h4⟩
            rw [List.getLast?_cons, h2]; rfl
      · rename_i e st2 hr
        rw [hr] at hP
        simp only [Prod.mk.injEq, Option.some.injEq] at h
        obtain ⟨rfl, rfl⟩ := h
        refine ⟨[s], i + 1, .step hs ⟨_, hst1' ▸ hr⟩ (.here _ _), ?_, .inr ⟨e, s, st1, rfl, rfl, hlast, hr⟩⟩
        rw [hP, hcalls1]; simp
      · simp at h

/-- **C33, in general.** Whatever the handlers do to the subscriptions, a notification goes through the list of subscribers by
position: it calls the subscriber at position 0, then the one that is then at position 1, and so on, until the position is
past the end of the then current list; it makes no other calls. -/
theorem C33_by_position (beh : Behaviour α) (ev : String) (fuel level : Nat) (x : α) (st st' : EvState α)
    (h : notifyAt beh fuel (level + 1) ev x st = (some (.ok ()), st')) :
    ∃ called j, Visits (Handled beh (notifyAt beh fuel level) (level + 1) ev x) ev 0 st called j st' ∧ (st'.subs ev).length ≤ j ∧
      callsAt (level + 1) st'.calls = callsAt (level + 1) st.calls ++ called.map (callOf (level + 1) ev x) := by
  unfold notifyAt at h
  obtain ⟨called, j, hv, hc, h1 | ⟨e, _, _, he, _⟩⟩ := loop_visits beh ev fuel level x fuel 0 st st' _ h
  · exact ⟨called, j, hv, h1.2, hc⟩
  · cases he

/-- **C33, no cancellations.** If no handler unsubscribes anything from the event during the notification, and none raises (the
notification returns normally), then the calls made for it are exactly those of the subscribers – including those that were
subscribed meanwhile – once each, in order of subscription, with the event's argument followed by the stored arguments. -/
theorem C33_notified_in_order (beh : Behaviour α) (ev : String) (hw : ∀ tr, NoUnsub ev (beh tr)) (fuel level : Nat) (x : α)
    (st st' : EvState α) (h : notifyAt beh fuel (level + 1) ev x st = (some (.ok ()), st')) :
    callsAt (level + 1) st'.calls = callsAt (level + 1) st.calls ++ (st'.subs ev).map (callOf (level + 1) ev x) ∧
    st.subs ev <+: st'.subs ev := by
  unfold notifyAt at h
  obtain ⟨h1, h2⟩ := loop_result hw fuel level x (callsAt (level + 1) st.calls) fuel 0 st st' (.ok ()) (by omega) (by simp) (by omega) h
  refine ⟨?_, h1⟩
  rcases h2 with ⟨_, h2, _⟩ | ⟨e, k, s, s1, he, _⟩
  · exact h2
  · cases he

/-- **C33, no changes.** If they do not subscribe anything to it either, these are the subscribers at the time of the call. -/
theorem C33_exactly_subscribers (beh : Behaviour α) (ev : String) (hw : ∀ tr, NoUnsub ev (beh tr)) (hw' : ∀ tr, NoSub ev (beh tr))
    (fuel level : Nat) (x : α) (st st' : EvState α) (h : notifyAt beh fuel (level + 1) ev x st = (some (.ok ()), st')) :
    callsAt (level + 1) st'.calls = callsAt (level + 1) st.calls ++ (st.subs ev).map (callOf (level + 1) ev x) ∧
    st'.subs ev = st.subs ev := by
  have hsubs := notifyAt_preserves (fixed_closed (level + 1) ev (st.subs ev)) (fun tr => within_of_both (hw tr) (hw' tr)) fuel (level + 1)
    (Nat.le_refl _) ev x st rfl
  rw [h] at hsubs
  simp only at hsubs
  have := C33_notified_in_order beh ev hw fuel level x st st' h
  rw [hsubs] at this
  exact ⟨this.1, hsubs⟩

/-- Three subscribers; the second subscribes a fourth one to another event. -/
def demoBehaviour : Behaviour Nat := fun tr =>
  match tr.getLast? with
  | some c => if c.handler = 2 then .subscribe "other" ⟨9, [], []⟩ .done else .done
  | none => .done

def demoSubs : EvState Nat :=
  { names := ["a"], subs := fun n => if n = "a" then [⟨1, [10], []⟩, ⟨2, [], [("k", 5)]⟩, ⟨1, [10], []⟩] else [] }

example : (∀ tr, NoUnsub "a" (demoBehaviour tr)) ∧ (∀ tr, NoSub "a" (demoBehaviour tr)) ∧
    (notifyAt demoBehaviour 10 5 "a" 77 demoSubs).1 = some (.ok ()) ∧
    (notifyAt demoBehaviour 10 5 "a" 77 demoSubs).2.calls =
      [⟨5, "a", 1, (77, [10]), []⟩, ⟨5, "a", 2, (77, []), [("k", 5)]⟩, ⟨5, "a", 1, (77, [10]), []⟩] := by
  refine ⟨?_, ?_, by decide +kernel, by decide +kernel⟩
  all_goals
    intro tr
    unfold demoBehaviour
    split
    · split
      · simp [NoUnsub, NoSub]
      · trivial
    · trivial

/-- **C33, consequence:** if handlers unsubscribe, others can be left out: the first of three handlers unsubscribes itself, and the second is never called. -/
theorem C33_unsubscribe_skips :
    let beh : Behaviour Nat := fun tr =>
      match tr.getLast? with
      | some c => if c.handler = 1 then .unsubscribe "a" ⟨1, [], []⟩ (fun _ => .done) else .done
      | none => .done
    let st : EvState Nat := { subs := fun n => if n = "a" then [⟨1, [], []⟩, ⟨2, [], []⟩, ⟨3, [], []⟩] else [] }
    let r := notifyAt beh 10 5 "a" 77 st
    r.1 = some (.ok ()) ∧ r.2.calls.map (·.handler) = [1, 3] ∧ r.2.subs "a" = [⟨2, [], []⟩, ⟨3, [], []⟩] := by decide +kernel

/-! ## C34 -/

/-- The subscriber list after a history (`unsubscribe` and `clearSubscribers` may raise, which the history survives). -/
def eventHistory (ops : List EventOp) : List Sub :=
  ops.foldl (fun l op =>
    match op with
    | .subscribe s => eventSubscribe l s
    | .unsubscribe s => (eventUnsubscribe l s).2
    | .clear => (eventClear l).2) []

theorem inForce_cancel (s : Sub) (l : List (Sub × Bool)) :
    inForce (cancelFirst s l) = (inForce l).erase s := by
  induction l with
  | nil => rfl
  | cons p l ih =>
    obtain ⟨t, live⟩ := p
    cases live with
    | false => simpa [cancelFirst, inForce] using ih
    | true =>
      by_cases h : t = s
      · subst h; simp [cancelFirst, inForce]
      · have he : (t == s) = false := by simpa using h
        simp only [inForce] at ih
        simp [cancelFirst, inForce, h, he, ih]

/-- **C34.** After every history the subscribers are the subscriptions still in force, in order: every `unsubscribe` cancels the earliest
equal one, and `len` is their number. -/
theorem C34_subscribers (ops : List EventOp) :
    eventHistory ops = inForce (ledger ops) ∧ eventCount (eventHistory ops) = (inForce (ledger ops)).length := by
  have : ∀ (l : List (Sub × Bool)), ops.foldl (fun l op => match op with
      | .subscribe s => eventSubscribe l s
      | .unsubscribe s => (eventUnsubscribe l s).2
      | .clear => (eventClear l).2) (inForce l) = inForce (ops.foldl (fun l op => match op with
      | .subscribe s => l ++ [(s, true)]
      | .unsubscribe s => cancelFirst s l
      | .clear => l) l) := by
    induction ops with
    | nil => intro l; rfl
    | cons op ops ih =>
      intro l
      rw [List.foldl_cons, List.foldl_cons, ← ih]
      congr 1
      cases op with
      | subscribe s => simp [eventSubscribe, inForce]
      | unsubscribe s =>
        simp only
        rw [inForce_cancel]
        unfold eventUnsubscribe
        split
        · rfl
        · rename_i h; simp only; rw [List.erase_of_not_mem h]
      | clear => rfl
  have h := this []
  exact ⟨h, by unfold eventHistory eventCount; exact congrArg List.length h⟩

/-- Unsubscribing something not subscribed raises and changes nothing; otherwise it does not raise. -/
theorem C34_unsubscribe (l : List Sub) (s : Sub) :
    (s ∉ l → (∃ e, (eventUnsubscribe l s).1 = .error e) ∧ (eventUnsubscribe l s).2 = l) ∧
    (s ∈ l → (eventUnsubscribe l s).1 = .ok () ∧ (eventUnsubscribe l s).2.length + 1 = l.length) := by
  constructor
  · intro h; simp [eventUnsubscribe, h]
  · intro h
    simp only [eventUnsubscribe, h, if_true, true_and]
    rw [List.length_erase_of_mem h]
    have := List.length_pos_of_mem h
    omega

/-- **C34, clearing.** `clearSubscribers` always raises `AttributeError`, and nobody is unsubscribed. -/
theorem C34_clear (l : List Sub) : (eventClear l).1 = .error .attributeError ∧ (eventClear l).2 = l := ⟨rfl, rfl⟩

example : eventHistory [.subscribe ⟨1, [], []⟩, .subscribe ⟨2, [5], []⟩, .subscribe ⟨1, [], []⟩, .unsubscribe ⟨2, [], []⟩,
    .unsubscribe ⟨1, [], []⟩, .subscribe ⟨3, [], []⟩] = [⟨2, [5], []⟩, ⟨1, [], []⟩, ⟨3, [], []⟩] := by decide

/-! ## C35 -/

theorem bounded_closed (L N : Nat) : EvClosed (α := α) L (fun _ => False) (fun _ => True) (fun st => ∀ ev, (st.subs ev).length ≤ N) := by
  refine ⟨?_, ?_, ?_, ?_⟩
  · intro st ev s hf; exact hf.elim
  · intro st ev s _ h e
    simp only [EvState.setSubs]
    split
    · unfold eventUnsubscribe
      split
      · exact Nat.le_trans (List.length_erase_le ..) (h ev)
      · exact h ev
    · exact h e
  · intro st ev h
    unfold register
    split <;> exact h
  · intro st c _ h; exact h

theorem run_terminates {N : Nat} {beh : Behaviour α} {fire : String → α → EvState α → Option (Py Unit) × EvState α}
    (hf : ∀ ev x st, (∀ e, (st.subs e).length ≤ N) → (fire ev x st).1.isSome = true ∧ ∀ e, ((fire ev x st).2.subs e).length ≤ N) :
    ∀ (p : EvProg α) (st : EvState α), Within (fun _ => False) (fun _ => True) p → (∀ e, (st.subs e).length ≤ N) → (p.run fire st).1.isSome = true
  | .done, _, _, _ => rfl
  | .raise _, _, _, _ => rfl
  | .subscribe _ _ _, _, hw, _ => hw.1.elim
  | .unsubscribe ev s k, st, hw, h => by
    unfold EvProg.run
    exact run_terminates (beh := beh) hf (k _) _ (hw.2 _) ((bounded_closed 0 N).unsub st ev s trivial h)
  | .register ev k, st, hw, h => by
    unfold EvProg.run
    exact run_terminates (beh := beh) hf k _ hw ((bounded_closed 0 N).reg st ev h)
  | .fire ev x k, st, hw, h => by
    obtain ⟨h1, h2⟩ := hf ev x st h
    unfold EvProg.run
    split
    · rename_i he; rw [he] at h1; cases h1
    · rename_i he; rw [he] at h2; exact run_terminates (beh := beh) hf (k _) _ (hw _) h2

/-- **C35.** If handlers never subscribe during notifications, a notification ends (returns or raises) after at
most as many rounds as there are subscribers, also if handlers unsubscribe and fire events recursively. -/
theorem C35_terminates (beh : Behaviour α) (hw : ∀ tr ev, NoSub ev (beh tr)) (N fuel : Nat) (hfuel : N < fuel) :
    ∀ (level : Nat) (ev : String) (x : α) (st : EvState α), (∀ e, (st.subs e).length ≤ N) →
      (notifyAt beh fuel level ev x st).1.isSome = true
  | 0, _, _, _, _ => rfl
  | level + 1, ev, x, st, h => by
    unfold notifyAt
    have hW : ∀ tr, Within (fun _ => False) (fun _ => True) (beh tr) := fun tr => within_of_noSub (hw tr)
    have hfire : ∀ ev x (st : EvState α), (∀ e, (st.subs e).length ≤ N) → (notifyAt beh fuel level ev x st).1.isSome = true ∧
        ∀ e, ((notifyAt beh fuel level ev x st).2.subs e).length ≤ N := by
      intro ev x st h
      exact ⟨C35_terminates beh hw N fuel hfuel level ev x st h,
        notifyAt_preserves (bounded_closed level N) hW fuel level (Nat.le_refl _) ev x st h⟩
    have hloop : ∀ (f i : Nat) (st : EvState α), (∀ e, (st.subs e).length ≤ N) → N < f + i →
        (notifyLoop beh (notifyAt beh fuel level) (level + 1) ev x f i st).1.isSome = true ∨ f = 0 := by
      intro f
      induction f with
      | zero => intro i st _ _; exact .inr rfl
      | succ f ih =>
        intro i st hb hlt
        left
        unfold notifyLoop
        split
        · rfl
        · rename_i s hs
          have hil := (List.getElem?_eq_some_iff.mp hs).1
          have hbi := hb ev
          simp only
          have hb1 : ∀ e, ((st.log ⟨level + 1, ev, s.handler, (x, s.args), s.kwargs⟩).subs e).length ≤ N := hb
          generalize st.log ⟨level + 1, ev, s.handler, (x, s.args), s.kwargs⟩ = st1 at hb1
          have ht := run_terminates (beh := beh) hfire (beh st1.calls) st1 (hW _) hb1
          have hp := EvProg.run_preserves (bounded_closed level N) (fun e y s' hs' => (hfire e y s' hs').2) (beh st1.calls) st1 (hW _) hb1
          split
          · rename_i st2 he
            rw [he] at hp
            rcases ih (i + 1) st2 hp (by omega) with h | h
            · exact h
            · subst h; omega
          · rfl
          · rename_i he; rw [he] at ht; cases ht
    rcases hloop fuel 0 st h (by omega) with h | h
    · exact h
    · omega

/-- What may still be added to the subscribers of events of `S`: `r` by the programs being run, `c` by each of the calls up to the `M`-th. -/
def Allowed (S : String → Prop) (c M T r : Nat) (st : EvState α) : Prop := ∀ e, S e → (st.subs e).length + c * (M - st.calls.length) + r ≤ T

theorem run_allowed {S : String → Prop} {c M T : Nat} {fire : String → α → EvState α → Option (Py Unit) × EvState α}
    (hf : ∀ r ev x st, S ev → Allowed S c M T r st → (fire ev x st).1.isSome = true ∧ Allowed S c M T r (fire ev x st).2) :
    ∀ (p : EvProg α) (k r : Nat) (st : EvState α), AtMost S k p → Allowed S c M T (k + r) st → (p.run fire st).1.isSome = true ∧ Allowed S c M T r (p.run fire st).2
  | .done, k, r, st, _, h => ⟨rfl, fun e he => by have := h e he; simp only [EvProg.run]; omega⟩
  | .raise _, k, r, st, _, h => ⟨rfl, fun e he => by have := h e he; simp only [EvProg.run]; omega⟩
  | .subscribe ev s p, k, r, st, hw, h => by
    unfold EvProg.run
    rcases hw with ⟨h1, h2⟩ | ⟨h1, h2⟩
    · refine run_allowed hf p k r _ h2 (fun e he => ?_)
      have hne : e ≠ ev := by rintro rfl; exact h1 he
      have := h e he
      simp only [EvState.setSubs, if_neg hne]
      exact this
    · refine run_allowed hf p (k - 1) r _ h2 (fun e he => ?_)
      have := h e he
      simp only [EvState.setSubs, eventSubscribe]
      split
      · rename_i heq
        subst heq
        simp only [List.length_append, List.length_singleton]
        omega
      · omega
  | .unsubscribe ev s p, k, r, st, hw, h => by
    unfold EvProg.run
    refine run_allowed hf (p _) k r _ (hw _) (fun e he => ?_)
    have := h e he
    simp only [EvState.setSubs]
    split
    · rename_i heq
      subst heq
      have hl : (eventUnsubscribe (st.subs e) s).2.length ≤ (st.subs e).length := by
        unfold eventUnsubscribe
        split
        · exact List.length_erase_le ..
        · exact Nat.le_refl _
      omega
    · exact this
  | .register ev p, k, r, st, hw, h => by
    unfold EvProg.run
    refine run_allowed hf p k r _ hw (fun e he => ?_)
    have := h e he
    unfold register
    split <;> exact this
  | .fire ev x p, k, r, st, hw, h => by
    obtain ⟨h1, h2⟩ := hf (k + r) ev x st hw.1 h
    unfold EvProg.run
    split
    · rename_i he; rw [he] at h1; cases h1
    · rename_i he; rw [he] at h2; exact run_allowed hf (p _) k r _ (hw.2 _) h2

theorem notify_allowed {S : String → Prop} {c M T : Nat} (beh : Behaviour α) (hc : ∀ tr, AtMost S c (beh tr)) (hM : ∀ tr, M < tr.length → AtMost S 0 (beh tr)) (fuel : Nat)
    (hfuel : T < fuel) : ∀ (level r : Nat) (ev : String) (x : α) (st : EvState α), S ev → Allowed S c M T r st →
      (notifyAt beh fuel level ev x st).1.isSome = true ∧ Allowed S c M T r (notifyAt beh fuel level ev x st).2
  | 0, r, _, _, _, _, h => ⟨rfl, h⟩
  | level + 1, r, ev, x, st, hev, h => by
    unfold notifyAt
    have hfire := fun r ev x st => notify_allowed beh hc hM fuel hfuel level r ev x st
    have hloop : ∀ (f i : Nat) (st : EvState α), Allowed S c M T r st → T < f + i →
        ((notifyLoop beh (notifyAt beh fuel level) (level + 1) ev x f i st).1.isSome = true ∨ f = 0) ∧
        Allowed S c M T r (notifyLoop beh (notifyAt beh fuel level) (level + 1) ev x f i st).2 := by
      intro f
      induction f with
      | zero => intro i st h _; exact ⟨.inr rfl, h⟩
      | succ f ih =>
        intro i st hb hlt
        unfold notifyLoop
        split
        · exact ⟨.inl rfl, hb⟩
        · rename_i s hs
          have hil := (List.getElem?_eq_some_iff.mp hs).1
          have hbi := hb ev hev
          simp only
          have hlen : (st.log ⟨level + 1, ev, s.handler, (x, s.args), s.kwargs⟩).calls.length = st.calls.length + 1 := by simp [EvState.log]
          have hsubs : (st.log ⟨level + 1, ev, s.handler, (x, s.args), s.kwargs⟩).subs = st.subs := rfl
          generalize st.log ⟨level + 1, ev, s.handler, (x, s.args), s.kwargs⟩ = st1 at hlen hsubs
          have hk : ∃ k, AtMost S k (beh st1.calls) ∧ Allowed S c M T (k + r) st1 := by
            by_cases hm : st.calls.length < M
            · refine ⟨c, hc _, fun e he => ?_⟩
              have := hb e he
              rw [hlen, hsubs]
              have e1 : M - st.calls.length = (M - (st.calls.length + 1)) + 1 := by omega
              rw [e1, Nat.mul_add, Nat.mul_one] at this
              omega
            · refine ⟨0, hM _ (by omega), fun e he => ?_⟩
              have := hb e he
              rw [hlen, hsubs]
              have e1 : M - (st.calls.length + 1) = 0 := by omega
              rw [e1]
              omega
          obtain ⟨k, hk1, hk2⟩ := hk
          obtain ⟨ht, hp⟩ := run_allowed hfire (beh st1.calls) k r st1 hk1 hk2
          split
          · rename_i st2 he
            rw [he] at hp
            obtain ⟨g1, g2⟩ := ih (i + 1) st2 hp (by omega)
            refine ⟨.inl ?_, g2⟩
            rcases g1 with h | h
            · exact h
            · subst h; omega
          · rename_i he; rw [he] at hp; exact ⟨.inl rfl, hp⟩
          · rename_i he; rw [he] at ht; cases ht
    obtain ⟨g1, g2⟩ := hloop fuel 0 st h (by omega)
    refine ⟨?_, g2⟩
    rcases g1 with h | h
    · exact h
    · omega

/-- **C35, handlers that subscribe.** Let `S` contain the event notified and all events handlers fire.  If handlers subscribe to events of `S` at most `c` times per call, and
not at all after the first `M` calls – other events do not matter –, every notification ends, after at most `N + c * M` rounds, `N` being the largest number of subscribers of an event of `S`. -/
theorem C35_subscribing (S : String → Prop) (c M N fuel : Nat) (beh : Behaviour α) (hc : ∀ tr, AtMost S c (beh tr)) (hM : ∀ tr, M < tr.length → AtMost S 0 (beh tr))
    (hfuel : N + c * M < fuel) (level : Nat) (ev : String) (hev : S ev) (x : α) (st : EvState α) (hN : ∀ e, S e → (st.subs e).length ≤ N) :
    (notifyAt beh fuel level ev x st).1.isSome = true := by
  refine (notify_allowed (c := c) (M := M) (T := N + c * M) beh hc hM fuel hfuel level 0 ev x st hev (fun e he => ?_)).1
  have h1 := hN e he
  have h2 : c * (M - st.calls.length) ≤ c * M := Nat.mul_le_mul_left c (Nat.sub_le _ _)
  omega

/-- In the demonstration: the handler of "a" subscribes itself again, but only in the first two calls, and always subscribes to "b", which nobody fires; it is called three times. -/
def twiceMore : Behaviour Nat := fun tr => .subscribe "b" ⟨2, [], []⟩ (if tr.length ≤ 2 then .subscribe "a" ⟨1, [], []⟩ .done else .done)

example : (∀ tr, AtMost (· = "a") 1 (twiceMore tr)) ∧ (∀ tr : List (Call Nat), 2 < tr.length → AtMost (· = "a") 0 (twiceMore tr)) ∧
    (let r := notifyAt twiceMore 4 1 "a" 0 { subs := fun n => if n = "a" then [⟨1, [], []⟩] else [] }
     r.1 = some (.ok ()) ∧ r.2.calls.length = 3 ∧ (r.2.subs "b").length = 3) := by
  refine ⟨fun tr => ?_, fun tr h => ?_, ?_⟩
  · unfold twiceMore
    refine .inl ⟨by decide, ?_⟩
    split
    · exact .inr ⟨by decide, trivial⟩
    · trivial
  · unfold twiceMore
    rw [if_neg (by omega)]
    exact .inl ⟨by decide, trivial⟩
  · decide +kernel

/-- **C35, the exception:** if a handler subscribes itself again, the notification never ends, whatever the number of rounds. -/
theorem C35_self_subscribing (fuel level : Nat) :
    let beh : Behaviour Nat := fun _ => .subscribe "a" ⟨1, [], []⟩ .done
    let st : EvState Nat := { subs := fun n => if n = "a" then [⟨1, [], []⟩] else [] }
    (notifyAt beh fuel (level + 1) "a" 0 st).1 = none := by
  intro beh st
  unfold notifyAt
  have : ∀ (f i : Nat) (s : EvState Nat), i < (s.subs "a").length →
      (notifyLoop beh (notifyAt beh fuel level) (level + 1) "a" 0 f i s).1 = none := by
    intro f
    induction f with
    | zero => intro i s _; rfl
    | succ f ih =>
      intro i s hi
      unfold notifyLoop
      rw [List.getElem?_eq_getElem hi]
      simp only
      apply ih
      simp only [EvState.setSubs, if_true, eventSubscribe, EvState.log, List.length_append, List.length_singleton]
      omega
  exact this fuel 0 st (by simp [st])

/-! ## C36 -/

/-- **C36, in general.** If a notification raises, the exception is that of the last handler called, the calls made are those of the subscribers it
met up to and including that one (see `C33_by_position`), and what that handler left behind is the final state: nothing ran after it. -/
theorem C36_last_called_raised (beh : Behaviour α) (ev : String) (fuel level : Nat) (x : α) (st st' : EvState α) (e : Exc)
    (h : notifyAt beh fuel (level + 1) ev x st = (some (.error e), st')) :
    ∃ called j s s1, Visits (Handled beh (notifyAt beh fuel level) (level + 1) ev x) ev 0 st called j st' ∧ called.getLast? = some s ∧
      callsAt (level + 1) st'.calls = callsAt (level + 1) st.calls ++ called.map (callOf (level + 1) ev x) ∧
      s1.calls.getLast? = some (callOf (level + 1) ev x s) ∧ (beh s1.calls).run (notifyAt beh fuel level) s1 = (some (.error e), st') := by
  unfold notifyAt at h
  obtain ⟨called, j, hv, hc, h1 | ⟨e', s, s1, he, h2, h3, h4⟩⟩ := loop_visits beh ev fuel level x fuel 0 st st' _ h
  · cases h1.1
  · cases he
    exact ⟨called, j, s, s1, hv, h2, hc, h3, h4⟩

/-- **C36, no cancellations.** If a notification raises (handlers not unsubscribing meanwhile), the exception is that of some subscriber, the calls
made are those of the subscribers up to and including it, and what it left behind is the final state: nothing ran after it. -/
theorem C36_failing_handler (beh : Behaviour α) (ev : String) (hw : ∀ tr, NoUnsub ev (beh tr)) (fuel level : Nat) (x : α)
    (st st' : EvState α) (e : Exc) (h : notifyAt beh fuel (level + 1) ev x st = (some (.error e), st')) :
    ∃ k s s1, (st'.subs ev)[k]? = some s ∧
      callsAt (level + 1) st'.calls = callsAt (level + 1) st.calls ++ ((st'.subs ev).take (k + 1)).map (callOf (level + 1) ev x) ∧
      s1.calls.getLast? = some (callOf (level + 1) ev x s) ∧
      (beh s1.calls).run (notifyAt beh fuel level) s1 = (some (.error e), st') := by
  unfold notifyAt at h
  obtain ⟨_, h2⟩ := loop_result hw fuel level x (callsAt (level + 1) st.calls) fuel 0 st st' _ (by omega) (by simp) (by omega) h
  rcases h2 with ⟨h2, _⟩ | ⟨e', k, s, s1, he, h3, h4, h5, h6⟩
  · cases h2
  · cases he; exact ⟨k, s, s1, h3, h4, h5, h6⟩

/-- Conversely a handler that raises whenever it is called makes the notification raise, whatever the others do (short of
unsubscribing or looping). -/
theorem C36_exception_reaches_caller (beh : Behaviour α) (ev : String) (hw : ∀ tr, NoUnsub ev (beh tr)) (fuel level : Nat) (x : α)
    (st st' : EvState α) (r : Py Unit) (h : notifyAt beh fuel (level + 1) ev x st = (some r, st')) (s : Sub) (hs : s ∈ st.subs ev) (e : Exc)
    (hr : ∀ tr, tr.getLast? = some (callOf (level + 1) ev x s) → beh tr = .raise e) : ∃ e', r = .error e' := by
  unfold notifyAt at h
  obtain ⟨h1, h2⟩ := loop_result hw fuel level x (callsAt (level + 1) st.calls) fuel 0 st st' _ (by omega) (by simp) (by omega) h
  rcases h2 with ⟨_, _, h3⟩ | ⟨e', k, s', s1, he, _⟩
  · obtain ⟨s1, s2, h4, h5⟩ := h3 s (h1.subset hs)
    rw [hr _ h4] at h5
    simp [EvProg.run] at h5
  · exact ⟨e', he⟩

/-- **C36, `MessageHandler.handle`** propagates every exception but `KeyError`. -/
theorem C36_handle_propagates (beh : Behaviour α) (fuel level : Nat) (name : String) (x : α) (st st' : EvState α) (e : Exc)
    (hn : name ∈ st.names) (hs : st.subs name ≠ []) (h : notifyAt beh fuel level name x st = (some (.error e), st')) (hk : e ≠ .keyError) :
    handleMessage beh fuel level name x st = (some (.error e), st') := by
  have : 0 < (st.subs name).length := List.length_pos_iff.mpr hs
  simp only [handleMessage, hn, this, if_true, h]
  split
  · rename_i he
    simp only [Prod.mk.injEq, Option.some.injEq, Except.error.injEq] at he
    exact absurd he.1 hk
  · rfl

/-- **C36, `KeyError`.** A `KeyError` of a handler ends the notification but does not reach the caller of `handle`. -/
theorem C36_handle_swallows_key_error (beh : Behaviour α) (fuel level : Nat) (name : String) (x : α) (st st' : EvState α)
    (hn : name ∈ st.names) (hs : st.subs name ≠ []) (h : notifyAt beh fuel level name x st = (some (.error .keyError), st')) :
    handleMessage beh fuel level name x st = (some (.ok ()), st') := by
  have : 0 < (st.subs name).length := List.length_pos_iff.mpr hs
  simp only [handleMessage, hn, this, if_true, h]

/-- **C36, consequence:** it does not reach the caller of `handle`, and the rest of the handlers do not run. -/
theorem C36_key_error_example :
    let beh : Behaviour Nat := fun tr =>
      match tr.getLast? with
      | some c => if c.handler = 1 then .raise .keyError else .done
      | none => .done
    let st : EvState Nat := { names := ["a"], subs := fun n => if n = "a" then [⟨1, [], []⟩, ⟨2, [], []⟩] else [] }
    let r := handleMessage beh 10 5 "a" 77 st
    r.1 = some (.ok ()) ∧ r.2.calls.map (·.handler) = [1] := by decide +kernel

/-- The second of three handlers raises. -/
example : let beh : Behaviour Nat := fun tr =>
      match tr.getLast? with
      | some c => if c.handler = 2 then .raise (.user 7) else .done
      | none => .done
    let r := handleMessage beh 10 5 "a" 77 demoSubs
    r.1 = some (.error (.user 7)) ∧ r.2.calls.map (·.handler) = [1, 2] := by decide +kernel

/-! ## C37 -/

/-- **C37.** `handle` of a message nobody registered for, or without subscribers, does nothing. -/
theorem C37_unhandled (beh : Behaviour α) (fuel level : Nat) (name : String) (x : α) (st : EvState α)
    (h : name ∉ st.names ∨ st.subs name = []) : handleMessage beh fuel level name x st = (some (.ok ()), st) := by
  unfold handleMessage
  rcases h with h | h
  · simp [h]
  · simp [h]

/-- Otherwise the subscribers of its name are called, in order, and nobody else – as long as they leave the subscriptions of
that name alone and do not raise. -/
theorem C37_reaches_its_subscribers (beh : Behaviour α) (name : String) (hw : ∀ tr, NoUnsub name (beh tr)) (hw' : ∀ tr, NoSub name (beh tr))
    (fuel level : Nat) (x : α) (st st' : EvState α) (hn : name ∈ st.names)
    (h : handleMessage beh fuel (level + 1) name x st = (some (.ok ()), st')) :
    (notifyAt beh fuel (level + 1) name x st).1 = some (.error .keyError) ∨
    callsAt (level + 1) st'.calls = callsAt (level + 1) st.calls ++ (st.subs name).map (callOf (level + 1) name x) := by
  by_cases hs : st.subs name = []
  · rw [C37_unhandled beh fuel (level + 1) name x st (.inr hs)] at h
    simp only [Prod.mk.injEq, true_and] at h
    subst h
    right; simp [hs]
  · have : 0 < (st.subs name).length := List.length_pos_iff.mpr hs
    simp only [handleMessage, hn, this, if_true] at h
    split at h
    · rename_i he; left; rw [he]
    · right; exact (C33_exactly_subscribers beh name hw hw' fuel level x st st' h).1

/-- Registering a name (again) keeps all subscriptions. -/
theorem C37_register (st : EvState α) (name : String) :
    (∀ n, (register st name).subs n = st.subs n) ∧ register (register st name) name = register st name ∧
    ∀ n, isMessageHandled (register st name) n = true ↔ (isMessageHandled st n = true ∨ n = name) := by
  unfold isMessageHandled
  by_cases h : name ∈ st.names
  · refine ⟨by simp [register, h], by simp [register, h], ?_⟩
    intro n
    simp only [register, h, if_true, decide_eq_true_eq]
    constructor
    · intro hn; exact .inl hn
    · rintro (hn | rfl)
      · exact hn
      · exact h
  · refine ⟨by simp [register, h], by simp [register, h], ?_⟩
    intro n; simp [register, h]

/-- `is_message_handled` is true exactly for the names ever registered. -/
theorem C37_is_message_handled (names : List String) (n : String) :
    isMessageHandled (names.foldl register ({} : EvState α)) n = true ↔ n ∈ names := by
  have : ∀ (st : EvState α), isMessageHandled (names.foldl register st) n = true ↔ (isMessageHandled st n = true ∨ n ∈ names) := by
    induction names with
    | nil => intro st; simp
    | cons m names ih =>
      intro st
      rw [List.foldl_cons, ih, (C37_register st m).2.2 n, List.mem_cons, or_assoc]
  rw [this]; simp [isMessageHandled]

/-- Handlers never lose a registration: no handler can unregister a name. -/
theorem C37_registration_kept (beh : Behaviour α) (fuel level : Nat) (ev : String) (x : α) (st : EvState α) (n : String)
    (h : isMessageHandled st n = true) : isMessageHandled (notifyAt beh fuel level ev x st).2 n = true := by
  refine notifyAt_preserves (P := fun s => isMessageHandled s n = true) (L := level) (okSub := fun _ => True) (okUnsub := fun _ => True)
    ⟨fun _ _ _ _ h => h, fun _ _ _ _ h => h, fun s m h => ((C37_register s m).2.2 n).mpr (.inl h), fun _ _ _ h => h⟩
    (fun tr => within_any _) fuel level (Nat.le_refl _) ev x st h

end Pyogp
